import Verif.Src.Lex
/-!
# The tokens of `enumset_derive/src/lib.rs`

Written by `tools/generate.sh`; `deriveToks_eq` in `Verif/Props/SrcParsePlain.lean` says that they are those of the text.
-/

set_option maxRecDepth 100000

namespace Enumset.Src.DeriveRs

def w0 : List Nat := [35]
def w1 : List Nat := [33]
def w2 : List Nat := [91]
def w3 : List Nat := [114, 101, 99, 117, 114, 115, 105, 111, 110, 95, 108, 105, 109, 105, 116]
def w4 : List Nat := [61]
def w5 : List Nat := [50, 53, 54]
def w6 : List Nat := [93]
def w7 : List Nat := [101, 120, 116, 101, 114, 110]
def w8 : List Nat := [99, 114, 97, 116, 101]
def w9 : List Nat := [112, 114, 111, 99, 95, 109, 97, 99, 114, 111]
def w10 : List Nat := [59]
def w11 : List Nat := [117, 115, 101]
def w12 : List Nat := [100, 97, 114, 108, 105, 110, 103]
def w13 : List Nat := [58, 58]
def w14 : List Nat := [117, 116, 105, 108]
def w15 : List Nat := [83, 112, 97, 110, 110, 101, 100, 86, 97, 108, 117, 101]
def w16 : List Nat := [42]
def w17 : List Nat := [84, 111, 107, 101, 110, 83, 116, 114, 101, 97, 109]
def w18 : List Nat := [112, 114, 111, 99, 95, 109, 97, 99, 114, 111, 50]
def w19 : List Nat := [123]
def w20 : List Nat := [76, 105, 116, 101, 114, 97, 108]
def w21 : List Nat := [44]
def w22 : List Nat := [83, 112, 97, 110]
def w23 : List Nat := [97, 115]
def w24 : List Nat := [83, 121, 110, 84, 111, 107, 101, 110, 83, 116, 114, 101, 97, 109]
def w25 : List Nat := [125]
def w26 : List Nat := [113, 117, 111, 116, 101]
def w27 : List Nat := [115, 116, 100]
def w28 : List Nat := [99, 111, 108, 108, 101, 99, 116, 105, 111, 110, 115]
def w29 : List Nat := [72, 97, 115, 104, 83, 101, 116]
def w30 : List Nat := [102, 109, 116]
def w31 : List Nat := [68, 105, 115, 112, 108, 97, 121]
def w32 : List Nat := [115, 121, 110]
def w33 : List Nat := [115, 112, 97, 110, 110, 101, 100]
def w34 : List Nat := [83, 112, 97, 110, 110, 101, 100]
def w35 : List Nat := [69, 114, 114, 111, 114]
def w36 : List Nat := [82, 101, 115, 117, 108, 116]
def w37 : List Nat := [102, 110]
def w38 : List Nat := [101, 114, 114, 111, 114]
def w39 : List Nat := [60]
def w40 : List Nat := [84]
def w41 : List Nat := [62]
def w42 : List Nat := [40]
def w43 : List Nat := [115, 112, 97, 110]
def w44 : List Nat := [58]
def w45 : List Nat := [109, 101, 115, 115, 97, 103, 101]
def w46 : List Nat := [105, 109, 112, 108]
def w47 : List Nat := [41]
def w48 : List Nat := [45, 62]
def w49 : List Nat := [69, 114, 114]
def w50 : List Nat := [110, 101, 119]
def w51 : List Nat := [100, 101, 114, 105, 118, 101]
def w52 : List Nat := [70, 114, 111, 109, 68, 101, 114, 105, 118, 101, 73, 110, 112, 117, 116]
def w53 : List Nat := [68, 101, 102, 97, 117, 108, 116]
def w54 : List Nat := [97, 116, 116, 114, 105, 98, 117, 116, 101, 115]
def w55 : List Nat := [101, 110, 117, 109, 115, 101, 116]
def w56 : List Nat := [100, 101, 102, 97, 117, 108, 116]
def w57 : List Nat := [115, 116, 114, 117, 99, 116]
def w58 : List Nat := [69, 110, 117, 109, 115, 101, 116, 65, 116, 116, 114, 115]
def w59 : List Nat := [110, 111, 95, 111, 112, 115]
def w60 : List Nat := [98, 111, 111, 108]
def w61 : List Nat := [110, 111, 95, 115, 117, 112, 101, 114, 95, 105, 109, 112, 108, 115]
def w62 : List Nat := [114, 101, 112, 114]
def w63 : List Nat := [79, 112, 116, 105, 111, 110]
def w64 : List Nat := [83, 116, 114, 105, 110, 103]
def w65 : List Nat := [62, 62]
def w66 : List Nat := [115, 101, 114, 105, 97, 108, 105, 122, 101, 95, 114, 101, 112, 114]
def w67 : List Nat := [115, 101, 114, 105, 97, 108, 105, 122, 101, 95, 100, 101, 110, 121, 95, 117, 110, 107, 110, 111, 119, 110]
def w68 : List Nat := [99, 114, 97, 116, 101, 95, 110, 97, 109, 101]
def w69 : List Nat := [115, 101, 114, 105, 97, 108, 105, 122, 101, 95, 97, 115, 95, 108, 105, 115, 116]
def w70 : List Nat := [115, 101, 114, 105, 97, 108, 105, 122, 101, 95, 97, 115, 95, 109, 97, 112]
def w71 : List Nat := [67, 111, 112, 121]
def w72 : List Nat := [67, 108, 111, 110, 101]
def w73 : List Nat := [101, 110, 117, 109]
def w74 : List Nat := [73, 110, 116, 101, 114, 110, 97, 108, 82, 101, 112, 114]
def w75 : List Nat := [85, 56]
def w76 : List Nat := [85, 49, 54]
def w77 : List Nat := [85, 51, 50]
def w78 : List Nat := [85, 54, 52]
def w79 : List Nat := [85, 49, 50, 56]
def w80 : List Nat := [65, 114, 114, 97, 121]
def w81 : List Nat := [117, 115, 105, 122, 101]
def w82 : List Nat := [115, 117, 112, 112, 111, 114, 116, 101, 100, 95, 118, 97, 114, 105, 97, 110, 116, 115]
def w83 : List Nat := [38]
def w84 : List Nat := [115, 101, 108, 102]
def w85 : List Nat := [109, 97, 116, 99, 104]
def w86 : List Nat := [61, 62]
def w87 : List Nat := [56]
def w88 : List Nat := [49, 54]
def w89 : List Nat := [51, 50]
def w90 : List Nat := [54, 52]
def w91 : List Nat := [49, 50, 56]
def w92 : List Nat := [115, 105, 122, 101]
def w93 : List Nat := [83, 101, 114, 100, 101, 82, 101, 112, 114]
def w94 : List Nat := [76, 105, 115, 116]
def w95 : List Nat := [77, 97, 112]
def w96 : List Nat := [83, 111, 109, 101]
def w97 : List Nat := [78, 111, 110, 101]
def w98 : List Nat := [69, 110, 117, 109, 83, 101, 116, 86, 97, 108, 117, 101]
def w99 : List Nat := [110, 97, 109, 101]
def w100 : List Nat := [73, 100, 101, 110, 116]
def w101 : List Nat := [118, 97, 114, 105, 97, 110, 116, 95, 114, 101, 112, 114]
def w102 : List Nat := [117, 51, 50]
def w103 : List Nat := [97, 108, 108, 111, 119]
def w104 : List Nat := [100, 101, 97, 100, 95, 99, 111, 100, 101]
def w105 : List Nat := [69, 110, 117, 109, 83, 101, 116, 73, 110, 102, 111]
def w106 : List Nat := [101, 120, 112, 108, 105, 99, 105, 116, 95, 105, 110, 116, 101, 114, 110, 97, 108, 95, 114, 101, 112, 114]
def w107 : List Nat := [105, 110, 116, 101, 114, 110, 97, 108, 95, 114, 101, 112, 114, 95, 102, 111, 114, 99, 101, 95, 97, 114, 114, 97, 121]
def w108 : List Nat := [101, 120, 112, 108, 105, 99, 105, 116, 95, 115, 101, 114, 100, 101, 95, 114, 101, 112, 114]
def w109 : List Nat := [118, 97, 114, 105, 97, 110, 116, 115]
def w110 : List Nat := [86, 101, 99]
def w111 : List Nat := [118, 105, 115]
def w112 : List Nat := [86, 105, 115, 105, 98, 105, 108, 105, 116, 121]
def w113 : List Nat := [109, 97, 120, 95, 100, 105, 115, 99, 114, 105, 109]
def w114 : List Nat := [109, 97, 120, 95, 100, 105, 115, 99, 114, 105, 109, 95, 115, 112, 97, 110]
def w115 : List Nat := [99, 117, 114, 95, 100, 105, 115, 99, 114, 105, 109]
def w116 : List Nat := [117, 115, 101, 100, 95, 118, 97, 114, 105, 97, 110, 116, 95, 110, 97, 109, 101, 115]
def w117 : List Nat := [117, 115, 101, 100, 95, 100, 105, 115, 99, 114, 105, 109, 105, 110, 97, 110, 116, 115]
def w118 : List Nat := [105, 110, 112, 117, 116]
def w119 : List Nat := [68, 101, 114, 105, 118, 101, 73, 110, 112, 117, 116]
def w120 : List Nat := [97, 116, 116, 114, 115]
def w121 : List Nat := [46]
def w122 : List Nat := [105, 100, 101, 110, 116]
def w123 : List Nat := [99, 108, 111, 110, 101]
def w124 : List Nat := [97, 115, 95, 114, 101, 102]
def w125 : List Nat := [109, 97, 112]
def w126 : List Nat := [124]
def w127 : List Nat := [120]
def w128 : List Nat := [99, 97, 108, 108, 95, 115, 105, 116, 101]
def w129 : List Nat := [102, 97, 108, 115, 101]
def w130 : List Nat := [48]
def w131 : List Nat := [112, 117, 115, 104, 95, 115, 101, 114, 105, 97, 108, 105, 122, 101, 95, 114, 101, 112, 114]
def w132 : List Nat := [109, 117, 116]
def w133 : List Nat := [116, 121]
def w134 : List Nat := [115, 116, 114]
def w135 : List Nat := [117, 56]
def w136 : List Nat := [117, 49, 54]
def w137 : List Nat := [117, 54, 52]
def w138 : List Nat := [117, 49, 50, 56]
def w139 : List Nat := [108, 105, 115, 116]
def w140 : List Nat := [97, 114, 114, 97, 121]
def w141 : List Nat := [95]
def w142 : List Nat := [102, 111, 114, 109, 97, 116]
def w143 : List Nat := [96, 123, 125, 96, 32, 105, 115, 32, 110, 111, 116, 32, 97, 32, 118, 97, 108, 105, 100, 32, 115, 101, 114, 105, 97, 108, 105, 122, 101, 100, 32, 114, 101, 112, 114, 101, 115, 101, 110, 116, 97, 116, 105, 111, 110, 46]
def w144 : List Nat := [63]
def w145 : List Nat := [79, 107]
def w146 : List Nat := [112, 117, 115, 104, 95, 114, 101, 112, 114]
def w147 : List Nat := [116, 114, 117, 101]
def w148 : List Nat := [96, 123, 125, 96, 32, 105, 115, 32, 110, 111, 116, 32, 97, 32, 118, 97, 108, 105, 100, 32, 105, 110, 116, 101, 114, 110, 97, 108, 32, 101, 110, 117, 109, 115, 101, 116, 32, 114, 101, 112, 114, 101, 115, 101, 110, 116, 97, 116, 105, 111, 110, 46]
def w149 : List Nat := [112, 117, 115, 104, 95, 118, 97, 114, 105, 97, 110, 116]
def w150 : List Nat := [118, 97, 114, 105, 97, 110, 116]
def w151 : List Nat := [86, 97, 114, 105, 97, 110, 116]
def w152 : List Nat := [105, 102]
def w153 : List Nat := [99, 111, 110, 116, 97, 105, 110, 115]
def w154 : List Nat := [116, 111, 95, 115, 116, 114, 105, 110, 103]
def w155 : List Nat := [68, 117, 112, 108, 105, 99, 97, 116, 101, 100, 32, 118, 97, 114, 105, 97, 110, 116, 32, 110, 97, 109, 101, 46]
def w156 : List Nat := [101, 108, 115, 101]
def w157 : List Nat := [108, 101, 116]
def w158 : List Nat := [70, 105, 101, 108, 100, 115]
def w159 : List Nat := [85, 110, 105, 116]
def w160 : List Nat := [102, 105, 101, 108, 100, 115]
def w161 : List Nat := [101, 120, 112, 114]
def w162 : List Nat := [100, 105, 115, 99, 114, 105, 109, 105, 110, 97, 110, 116]
def w163 : List Nat := [69, 120, 112, 114]
def w164 : List Nat := [76, 105, 116]
def w165 : List Nat := [69, 120, 112, 114, 76, 105, 116]
def w166 : List Nat := [108, 105, 116]
def w167 : List Nat := [73, 110, 116]
def w168 : List Nat := [105]
def w169 : List Nat := [46, 46]
def w170 : List Nat := [98, 97, 115, 101, 49, 48, 95, 112, 97, 114, 115, 101]
def w171 : List Nat := [118, 97, 108]
def w172 : List Nat := [69, 110, 117, 109, 32, 100, 105, 115, 99, 114, 105, 109, 105, 110, 97, 110, 116, 115, 32, 109, 117, 115, 116, 32, 102, 105, 116, 32, 105, 110, 116, 111, 32, 96, 117, 51, 50, 96, 46]
def w173 : List Nat := [85, 110, 97, 114, 121]
def w174 : List Nat := [69, 120, 112, 114, 85, 110, 97, 114, 121]
def w175 : List Nat := [111, 112]
def w176 : List Nat := [85, 110, 79, 112]
def w177 : List Nat := [78, 101, 103]
def w178 : List Nat := [69, 110, 117, 109, 32, 100, 105, 115, 99, 114, 105, 109, 105, 110, 97, 110, 116, 115, 32, 109, 117, 115, 116, 32, 110, 111, 116, 32, 98, 101, 32, 110, 101, 103, 97, 116, 105, 118, 101, 46]
def w179 : List Nat := [69, 110, 117, 109, 32, 100, 105, 115, 99, 114, 105, 109, 105, 110, 97, 110, 116, 115, 32, 109, 117, 115, 116, 32, 98, 101, 32, 108, 105, 116, 101, 114, 97, 108, 32, 101, 120, 112, 114, 101, 115, 115, 105, 111, 110, 115, 46]
def w180 : List Nat := [62, 61]
def w181 : List Nat := [48, 120, 70, 70, 70, 70, 70, 70, 67, 48]
def w182 : List Nat := [77, 97, 120, 105, 109, 117, 109, 32, 100, 105, 115, 99, 114, 105, 109, 105, 110, 97, 110, 116, 32, 97, 108, 108, 111, 119, 101, 100, 32, 105, 115, 32, 96, 48, 120, 70, 70, 70, 70, 70, 70, 66, 70, 96, 46]
def w183 : List Nat := [68, 117, 112, 108, 105, 99, 97, 116, 101, 100, 32, 101, 110, 117, 109, 32, 100, 105, 115, 99, 114, 105, 109, 105, 110, 97, 110, 116, 46]
def w184 : List Nat := [43, 61]
def w185 : List Nat := [49]
def w186 : List Nat := [112, 117, 115, 104]
def w187 : List Nat := [105, 110, 115, 101, 114, 116]
def w188 : List Nat := [96, 35, 91, 100, 101, 114, 105, 118, 101, 40, 69, 110, 117, 109, 83, 101, 116, 84, 121, 112, 101, 41, 93, 96, 32, 99, 97, 110, 32, 111, 110, 108, 121, 32, 98, 101, 32, 117, 115, 101, 100, 32, 111, 110, 32, 102, 105, 101, 108, 100, 108, 101, 115, 115, 32, 101, 110, 117, 109, 115, 46]
def w189 : List Nat := [105, 110, 116, 101, 114, 110, 97, 108, 95, 114, 101, 112, 114]
def w190 : List Nat := [38, 38]
def w191 : List Nat := [43]
def w192 : List Nat := [47]
def w193 : List Nat := [115, 101, 114, 100, 101, 95, 114, 101, 112, 114]
def w194 : List Nat := [118, 97, 108, 105, 100, 97, 116, 101]
def w195 : List Nat := [108, 97, 114, 103, 101, 115, 116, 95, 100, 105, 115, 99, 114, 105, 109, 105, 110, 97, 110, 116, 95, 115, 112, 97, 110]
def w196 : List Nat := [60, 61]
def w197 : List Nat := [96, 114, 101, 112, 114, 96, 32, 105, 115, 32, 116, 111, 111, 32, 115, 109, 97, 108, 108, 32, 116, 111, 32, 99, 111, 110, 116, 97, 105, 110, 32, 116, 104, 101, 32, 108, 97, 114, 103, 101, 115, 116, 32, 100, 105, 115, 99, 114, 105, 109, 105, 110, 97, 110, 116, 46]
def w198 : List Nat := [96, 115, 101, 114, 105, 97, 108, 105, 122, 101, 95, 114, 101, 112, 114, 96, 32, 105, 115, 32, 116, 111, 111, 32, 115, 109, 97, 108, 108, 32, 116, 111, 32, 99, 111, 110, 116, 97, 105, 110, 32, 116, 104, 101, 32, 108, 97, 114, 103, 101, 115, 116, 32, 100, 105, 115, 99, 114, 105, 109, 105, 110, 97, 110, 116, 46]
def w199 : List Nat := [118, 97, 114, 105, 97, 110, 116, 95, 109, 97, 112]
def w200 : List Nat := [118, 101, 99]
def w201 : List Nat := [102, 111, 114]
def w202 : List Nat := [105, 110]
def w203 : List Nat := [105, 100, 120]
def w204 : List Nat := [98, 105, 116]
def w205 : List Nat := [37]
def w206 : List Nat := [119, 104, 105, 108, 101]
def w207 : List Nat := [108, 101, 110]
def w208 : List Nat := [124, 61]
def w209 : List Nat := [49, 117, 54, 52]
def w210 : List Nat := [60, 60]
def w211 : List Nat := [101, 110, 117, 109, 95, 115, 101, 116, 95, 116, 121, 112, 101, 95, 105, 109, 112, 108]
def w212 : List Nat := [105, 110, 102, 111]
def w213 : List Nat := [119, 97, 114, 110, 105, 110, 103, 115]
def w214 : List Nat := [39, 115, 116, 97, 116, 105, 99]
def w215 : List Nat := [99, 102, 103]
def w216 : List Nat := [102, 101, 97, 116, 117, 114, 101]
def w217 : List Nat := [112, 114, 111, 99, 45, 109, 97, 99, 114, 111, 45, 99, 114, 97, 116, 101]
def w218 : List Nat := [112, 114, 111, 99, 95, 109, 97, 99, 114, 111, 95, 99, 114, 97, 116, 101]
def w219 : List Nat := [70, 111, 117, 110, 100, 67, 114, 97, 116, 101]
def w220 : List Nat := [78, 97, 109, 101]
def w221 : List Nat := [110, 111, 116]
def w222 : List Nat := [116, 121, 112, 101, 100, 95, 101, 110, 117, 109, 115, 101, 116]
def w223 : List Nat := [69, 110, 117, 109, 83, 101, 116]
def w224 : List Nat := [99, 111, 114, 101]
def w225 : List Nat := [95, 95, 105, 110, 116, 101, 114, 110, 97, 108]
def w226 : List Nat := [99, 111, 114, 101, 95, 101, 120, 112, 111, 114, 116]
def w227 : List Nat := [105, 110, 116, 101, 114, 110, 97, 108]
def w228 : List Nat := [115, 101, 114, 100, 101]
def w229 : List Nat := [65, 114, 114, 97, 121, 82, 101, 112, 114]
def w230 : List Nat := [97, 108, 108, 95, 118, 97, 114, 105, 97, 110, 116, 115]
def w231 : List Nat := [117, 54, 52, 95, 117, 110, 115, 117, 102, 102, 105, 120, 101, 100]
def w232 : List Nat := [117, 49, 50, 56, 95, 117, 110, 115, 117, 102, 102, 105, 120, 101, 100]
def w233 : List Nat := [103, 101, 116]
def w234 : List Nat := [109, 97, 112, 95, 111, 114]
def w235 : List Nat := [117, 110, 119, 114, 97, 112, 95, 111, 114]
def w236 : List Nat := [111, 112, 115]
def w237 : List Nat := [97, 117, 116, 111, 109, 97, 116, 105, 99, 97, 108, 108, 121, 95, 100, 101, 114, 105, 118, 101, 100]
def w238 : List Nat := [79]
def w239 : List Nat := [73, 110, 116, 111]
def w240 : List Nat := [83, 117, 98]
def w241 : List Nat := [116, 121, 112, 101]
def w242 : List Nat := [79, 117, 116, 112, 117, 116]
def w243 : List Nat := [115, 117, 98]
def w244 : List Nat := [111, 116, 104, 101, 114]
def w245 : List Nat := [83, 101, 108, 102]
def w246 : List Nat := [111, 110, 108, 121]
def w247 : List Nat := [45]
def w248 : List Nat := [105, 110, 116, 111]
def w249 : List Nat := [66, 105, 116, 65, 110, 100]
def w250 : List Nat := [98, 105, 116, 97, 110, 100]
def w251 : List Nat := [66, 105, 116, 79, 114]
def w252 : List Nat := [98, 105, 116, 111, 114]
def w253 : List Nat := [66, 105, 116, 88, 111, 114]
def w254 : List Nat := [98, 105, 116, 120, 111, 114]
def w255 : List Nat := [94]
def w256 : List Nat := [78, 111, 116]
def w257 : List Nat := [99, 109, 112]
def w258 : List Nat := [80, 97, 114, 116, 105, 97, 108, 69, 113]
def w259 : List Nat := [101, 113]
def w260 : List Nat := [61, 61]
def w261 : List Nat := [115, 101, 114, 100, 101, 95, 111, 112, 115]
def w262 : List Nat := [102, 114, 111, 109, 95, 102, 110]
def w263 : List Nat := [116, 111, 95, 102, 110]
def w264 : List Nat := [102, 114, 111, 109, 95, 117, 56]
def w265 : List Nat := [116, 111, 95, 117, 56]
def w266 : List Nat := [102, 114, 111, 109, 95, 117, 49, 54]
def w267 : List Nat := [116, 111, 95, 117, 49, 54]
def w268 : List Nat := [102, 114, 111, 109, 95, 117, 51, 50]
def w269 : List Nat := [116, 111, 95, 117, 51, 50]
def w270 : List Nat := [102, 114, 111, 109, 95, 117, 54, 52]
def w271 : List Nat := [116, 111, 95, 117, 54, 52]
def w272 : List Nat := [102, 114, 111, 109, 95, 117, 49, 50, 56]
def w273 : List Nat := [116, 111, 95, 117, 49, 50, 56]
def w274 : List Nat := [117, 110, 114, 101, 97, 99, 104, 97, 98, 108, 101]
def w275 : List Nat := [99, 104, 101, 99, 107, 95, 117, 110, 107, 110, 111, 119, 110]
def w276 : List Nat := [118, 97, 108, 117, 101]
def w277 : List Nat := [33, 61]
def w278 : List Nat := [100, 101]
def w279 : List Nat := [114, 101, 116, 117, 114, 110]
def w280 : List Nat := [112, 114, 101, 108, 117, 100, 101]
def w281 : List Nat := [118, 49]
def w282 : List Nat := [68]
def w283 : List Nat := [99, 117, 115, 116, 111, 109]
def w284 : List Nat := [101, 110, 117, 109, 115, 101, 116, 32, 99, 111, 110, 116, 97, 105, 110, 115, 32, 117, 110, 107, 110, 111, 119, 110, 32, 98, 105, 116, 115]
def w285 : List Nat := [115, 101, 114, 105, 97, 108, 105, 122, 101]
def w286 : List Nat := [83]
def w287 : List Nat := [83, 101, 114, 105, 97, 108, 105, 122, 101, 114]
def w288 : List Nat := [115, 101, 116]
def w289 : List Nat := [115, 101, 114]
def w290 : List Nat := [114, 101, 115, 117, 108, 116]
def w291 : List Nat := [69, 110, 117, 109, 83, 101, 116, 84, 121, 112, 101, 82, 101, 112, 114]
def w292 : List Nat := [95, 95, 112, 114, 105, 118, 95, 114, 101, 112, 114]
def w293 : List Nat := [83, 101, 114, 105, 97, 108, 105, 122, 101]
def w294 : List Nat := [100, 101, 115, 101, 114, 105, 97, 108, 105, 122, 101]
def w295 : List Nat := [39, 100, 101]
def w296 : List Nat := [68, 101, 115, 101, 114, 105, 97, 108, 105, 122, 101, 114]
def w297 : List Nat := [68, 101, 115, 101, 114, 105, 97, 108, 105, 122, 101]
def w298 : List Nat := [101, 120, 112, 101, 99, 116, 105, 110, 103, 95, 115, 116, 114]
def w299 : List Nat := [97, 32, 108, 105, 115, 116, 32, 111, 102, 32, 123, 125]
def w300 : List Nat := [83, 101, 114, 105, 97, 108, 105, 122, 101, 83, 101, 113]
def w301 : List Nat := [115, 101, 113]
def w302 : List Nat := [115, 101, 114, 105, 97, 108, 105, 122, 101, 95, 115, 101, 113]
def w303 : List Nat := [115, 101, 114, 105, 97, 108, 105, 122, 101, 95, 101, 108, 101, 109, 101, 110, 116]
def w304 : List Nat := [101, 110, 100]
def w305 : List Nat := [86, 105, 115, 105, 116, 111, 114]
def w306 : List Nat := [86, 97, 108, 117, 101]
def w307 : List Nat := [101, 120, 112, 101, 99, 116, 105, 110, 103]
def w308 : List Nat := [102, 111, 114, 109, 97, 116, 116, 101, 114]
def w309 : List Nat := [70, 111, 114, 109, 97, 116, 116, 101, 114]
def w310 : List Nat := [119, 114, 105, 116, 101]
def w311 : List Nat := [118, 105, 115, 105, 116, 95, 115, 101, 113]
def w312 : List Nat := [65]
def w313 : List Nat := [119, 104, 101, 114, 101]
def w314 : List Nat := [83, 101, 113, 65, 99, 99, 101, 115, 115]
def w315 : List Nat := [97, 99, 99, 117, 109]
def w316 : List Nat := [110, 101, 120, 116, 95, 101, 108, 101, 109, 101, 110, 116]
def w317 : List Nat := [100, 101, 115, 101, 114, 105, 97, 108, 105, 122, 101, 95, 115, 101, 113]
def w318 : List Nat := [97, 32, 109, 97, 112, 32, 102, 114, 111, 109, 32, 123, 125, 32, 116, 111, 32, 98, 111, 111, 108]
def w319 : List Nat := [83, 101, 114, 105, 97, 108, 105, 122, 101, 77, 97, 112]
def w320 : List Nat := [115, 101, 114, 105, 97, 108, 105, 122, 101, 95, 109, 97, 112]
def w321 : List Nat := [115, 101, 114, 105, 97, 108, 105, 122, 101, 95, 101, 110, 116, 114, 121]
def w322 : List Nat := [118, 105, 115, 105, 116, 95, 109, 97, 112]
def w323 : List Nat := [77, 97, 112, 65, 99, 99, 101, 115, 115]
def w324 : List Nat := [105, 115, 95, 112, 114, 101, 115, 101, 110, 116]
def w325 : List Nat := [110, 101, 120, 116, 95, 101, 110, 116, 114, 121]
def w326 : List Nat := [100, 101, 115, 101, 114, 105, 97, 108, 105, 122, 101, 95, 109, 97, 112]
def w327 : List Nat := [112, 114, 101, 102, 101, 114, 114, 101, 100, 95, 115, 105, 122, 101]
def w328 : List Nat := [69, 110, 117, 109, 83, 101, 116, 84, 121, 112, 101, 80, 114, 105, 118, 97, 116, 101]
def w329 : List Nat := [82, 101, 112, 114]
def w330 : List Nat := [80, 82, 69, 70, 69, 82, 82, 69, 68, 95, 65, 82, 82, 65, 89, 95, 76, 69, 78]
def w331 : List Nat := [99, 104, 101, 99, 107, 95, 101, 120, 116, 114, 97]
def w332 : List Nat := [99, 111, 110, 118, 101, 114, 116, 95, 97, 114, 114, 97, 121]
def w333 : List Nat := [95, 118, 97, 108]
def w334 : List Nat := [116, 114, 121, 95, 102, 114, 111, 109, 95, 97, 114, 114, 97, 121]
def w335 : List Nat := [102, 114, 111, 109, 95, 97, 114, 114, 97, 121]
def w336 : List Nat := [97, 115, 95, 97, 114, 114, 97, 121]
def w337 : List Nat := [114, 101, 118]
def w338 : List Nat := [98, 114, 101, 97, 107]
def w339 : List Nat := [97, 32, 108, 105, 115, 116, 32, 111, 102, 32, 117, 54, 52]
def w340 : List Nat := [105, 115, 95, 117, 110, 105, 110, 104, 97, 98, 105, 116, 101, 100]
def w341 : List Nat := [105, 115, 95, 101, 109, 112, 116, 121]
def w342 : List Nat := [105, 115, 95, 122, 115, 116]
def w343 : List Nat := [105, 110, 116, 111, 95, 105, 109, 112, 108]
def w344 : List Nat := [101, 110, 117, 109, 95, 105, 110, 116, 111, 95, 117, 51, 50]
def w345 : List Nat := [112, 97, 110, 105, 99]
def w346 : List Nat := [99, 111, 110, 99, 97, 116]
def w347 : List Nat := [115, 116, 114, 105, 110, 103, 105, 102, 121]
def w348 : List Nat := [32, 105, 115, 32, 117, 110, 105, 110, 104, 97, 98, 105, 116, 101, 100, 46]
def w349 : List Nat := [117, 110, 115, 97, 102, 101]
def w350 : List Nat := [101, 110, 117, 109, 95, 102, 114, 111, 109, 95, 117, 51, 50]
def w351 : List Nat := [118, 97, 114, 105, 97, 110, 116, 95, 110, 97, 109, 101]
def w352 : List Nat := [105, 116, 101, 114]
def w353 : List Nat := [99, 111, 108, 108, 101, 99, 116]
def w354 : List Nat := [118, 97, 114, 105, 97, 110, 116, 95, 118, 97, 108, 117, 101]
def w355 : List Nat := [99, 111, 110, 115, 116, 95, 102, 105, 101, 108, 100]
def w356 : List Nat := [73, 83, 95, 85, 56]
def w357 : List Nat := [73, 83, 95, 85, 49, 54]
def w358 : List Nat := [73, 83, 95, 85, 51, 50]
def w359 : List Nat := [73, 83, 95, 85, 54, 52]
def w360 : List Nat := [73, 83, 95, 85, 49, 50, 56]
def w361 : List Nat := [105, 110, 116, 95, 116, 121, 112, 101]
def w362 : List Nat := [99, 111, 110, 115, 116]
def w363 : List Nat := [109, 101, 109]
def w364 : List Nat := [115, 105, 122, 101, 95, 111, 102]
def w365 : List Nat := [104, 105, 110, 116]
def w366 : List Nat := [117, 110, 114, 101, 97, 99, 104, 97, 98, 108, 101, 95, 117, 110, 99, 104, 101, 99, 107, 101, 100]
def w367 : List Nat := [101, 113, 95, 105, 109, 112, 108]
def w368 : List Nat := [115, 117, 112, 101, 114, 95, 105, 109, 112, 108, 115]
def w369 : List Nat := [69, 113]
def w370 : List Nat := [99, 108, 105, 112, 112, 121]
def w371 : List Nat := [101, 120, 112, 108, 95, 105, 109, 112, 108, 95, 99, 108, 111, 110, 101, 95, 111, 110, 95, 99, 111, 112, 121]
def w372 : List Nat := [109, 97, 114, 107, 101, 114]
def w373 : List Nat := [105, 109, 112, 108, 95, 119, 105, 116, 104, 95, 114, 101, 112, 114]
def w374 : List Nat := [105, 115, 95, 115, 111, 109, 101]
def w375 : List Nat := [69, 110, 117, 109, 83, 101, 116, 84, 121, 112, 101, 87, 105, 116, 104, 82, 101, 112, 114]
def w376 : List Nat := [105, 110, 104, 101, 114, 101, 110, 116, 95, 105, 109, 112, 108, 95, 98, 108, 111, 99, 107, 115]
def w377 : List Nat := [115, 101, 108, 102, 95, 97, 115, 95, 114, 101, 112, 114, 95, 109, 97, 115, 107]
def w378 : List Nat := [100, 111, 99]
def w379 : List Nat := [104, 105, 100, 100, 101, 110]
def w380 : List Nat := [100, 101, 112, 114, 101, 99, 97, 116, 101, 100]
def w381 : List Nat := [110, 111, 116, 101]
def w382 : List Nat := [84, 104, 105, 115, 32, 109, 101, 116, 104, 111, 100, 32, 105, 115, 32, 97, 110, 32, 105, 110, 116, 101, 114, 110, 97, 108, 32, 105, 109, 112, 108, 101, 109, 101, 110, 116, 97, 116, 105, 111, 110, 32, 100, 101, 116, 97, 105, 108, 32, 103, 101, 110, 101, 114, 97, 116, 101, 100, 32, 98, 121, 32, 116, 104, 101, 32, 96, 101, 110, 117, 109, 115, 101, 116, 96, 32, 99, 114, 97, 116, 101, 39, 115, 32, 112, 114, 111, 99, 101, 100, 117, 114, 97, 108, 32, 109, 97, 99, 114, 111, 46, 32, 73, 116, 32, 115, 104, 111, 117, 108, 100, 32, 110, 111, 116, 32, 98, 101, 32, 117, 115, 101, 100, 32, 100, 105, 114, 101, 99, 116, 108, 121, 46]
def w383 : List Nat := [112, 117, 98]
def w384 : List Nat := [95, 95, 105, 109, 112, 108, 95, 101, 110, 117, 109, 115, 101, 116, 95, 105, 110, 116, 101, 114, 110, 97, 108, 95, 95, 99, 111, 110, 115, 116, 95, 111, 110, 108, 121]
def w385 : List Nat := [95, 95, 69, 110, 117, 109, 83, 101, 116, 67, 111, 110, 115, 116, 72, 101, 108, 112, 101, 114]
def w386 : List Nat := [99, 111, 110, 115, 116, 95, 117, 110, 105, 111, 110]
def w387 : List Nat := [99, 104, 97, 105, 110, 95, 97]
def w388 : List Nat := [99, 104, 97, 105, 110, 95, 98]
def w389 : List Nat := [99, 111, 110, 115, 116, 95, 105, 110, 116, 101, 114, 115, 101, 99, 116, 105, 111, 110]
def w390 : List Nat := [99, 111, 110, 115, 116, 95, 115, 121, 109, 109, 101, 116, 114, 105, 99, 95, 100, 105, 102, 102, 101, 114, 101, 110, 99, 101]
def w391 : List Nat := [99, 111, 110, 115, 116, 95, 99, 111, 109, 112, 108, 101, 109, 101, 110, 116]
def w392 : List Nat := [99, 104, 97, 105, 110]
def w393 : List Nat := [97, 108, 108]
def w394 : List Nat := [38, 61]
def w395 : List Nat := [94, 61]
def w396 : List Nat := [103, 101, 110, 101, 114, 97, 116, 101, 100, 95, 119, 97, 114, 110, 105, 110, 103, 115]
def w397 : List Nat := [119, 97, 114, 110, 105, 110, 103]
def w398 : List Nat := [101, 120, 116, 101, 110, 100]
def w399 : List Nat := [113, 117, 111, 116, 101, 95, 115, 112, 97, 110, 110, 101, 100]
def w400 : List Nat := [110, 111, 110, 95, 117, 112, 112, 101, 114, 95, 99, 97, 115, 101, 95, 103, 108, 111, 98, 97, 108, 115]
def w401 : List Nat := [95, 119]
def w402 : List Nat := [98, 105, 116, 95, 119, 105, 100, 116, 104]
def w403 : List Nat := [118, 97, 114, 105, 97, 110, 116, 95, 99, 111, 117, 110, 116]
def w404 : List Nat := [95, 95, 105, 109, 112, 108, 95, 101, 110, 117, 109, 115, 101, 116, 95, 105, 110, 116, 101, 114, 110, 97, 108, 95, 95, 99, 111, 110, 115, 116, 95, 104, 101, 108, 112, 101, 114]
def w405 : List Nat := [67, 111, 110, 115, 116, 72, 101, 108, 112, 101, 114]
def w406 : List Nat := [67, 79, 78, 83, 84, 95, 72, 69, 76, 80, 69, 82, 95, 73, 78, 83, 84, 65, 78, 67, 69]
def w407 : List Nat := [65, 76, 76, 95, 66, 73, 84, 83]
def w408 : List Nat := [66, 73, 84, 95, 87, 73, 68, 84, 72]
def w409 : List Nat := [86, 65, 82, 73, 65, 78, 84, 95, 67, 79, 85, 78, 84]
def w410 : List Nat := [69, 110, 117, 109, 83, 101, 116, 84, 121, 112, 101]
def w411 : List Nat := [95, 95, 101, 110, 117, 109, 115, 101, 116, 95, 100, 101, 114, 105, 118, 101, 95, 95, 103, 101, 110, 101, 114, 97, 116, 101, 100, 95, 119, 97, 114, 110, 105, 110, 103, 115]
def w412 : List Nat := [112, 114, 111, 99, 95, 109, 97, 99, 114, 111, 95, 100, 101, 114, 105, 118, 101]
def w413 : List Nat := [100, 101, 114, 105, 118, 101, 95, 101, 110, 117, 109, 95, 115, 101, 116, 95, 116, 121, 112, 101]
def w414 : List Nat := [112, 97, 114, 115, 101, 95, 109, 97, 99, 114, 111, 95, 105, 110, 112, 117, 116]
def w415 : List Nat := [105, 110, 112, 117, 116, 95, 115, 112, 97, 110]
def w416 : List Nat := [102, 114, 111, 109, 95, 100, 101, 114, 105, 118, 101, 95, 105, 110, 112, 117, 116]
def w417 : List Nat := [101]
def w418 : List Nat := [119, 114, 105, 116, 101, 95, 101, 114, 114, 111, 114, 115]
def w419 : List Nat := [100, 101, 114, 105, 118, 101, 95, 101, 110, 117, 109, 95, 115, 101, 116, 95, 116, 121, 112, 101, 95, 48]
def w420 : List Nat := [117, 110, 119, 114, 97, 112, 95, 111, 114, 95, 101, 108, 115, 101]
def w421 : List Nat := [116, 111, 95, 99, 111, 109, 112, 105, 108, 101, 95, 101, 114, 114, 111, 114]
def w422 : List Nat := [95, 105, 110, 112, 117, 116, 95, 115, 112, 97, 110]
def w423 : List Nat := [103, 101, 110, 101, 114, 105, 99, 115]
def w424 : List Nat := [112, 97, 114, 97, 109, 115]
def w425 : List Nat := [96, 35, 91, 100, 101, 114, 105, 118, 101, 40, 69, 110, 117, 109, 83, 101, 116, 84, 121, 112, 101, 41, 93, 96, 32, 99, 97, 110, 110, 111, 116, 32, 98, 101, 32, 117, 115, 101, 100, 32, 111, 110, 32, 101, 110, 117, 109, 115, 32, 119, 105, 116, 104, 32, 116, 121, 112, 101, 32, 112, 97, 114, 97, 109, 101, 116, 101, 114, 115, 46]
def w426 : List Nat := [68, 97, 116, 97]
def w427 : List Nat := [69, 110, 117, 109]
def w428 : List Nat := [100, 97, 116, 97]
def w429 : List Nat := [97, 116, 116, 114]
def w430 : List Nat := [112, 97, 116, 104]
def w431 : List Nat := [105, 115, 95, 105, 100, 101, 110, 116]
def w432 : List Nat := [109, 101, 116, 97]
def w433 : List Nat := [112, 97, 114, 115, 101, 95, 97, 114, 103, 115]
def w434 : List Nat := [97, 115, 95, 115, 116, 114]
def w435 : List Nat := [67]
def w436 : List Nat := [82, 117, 115, 116]
def w437 : List Nat := [105, 56]
def w438 : List Nat := [105, 49, 54]
def w439 : List Nat := [105, 51, 50]
def w440 : List Nat := [105, 54, 52]
def w441 : List Nat := [105, 49, 50, 56]
def w442 : List Nat := [105, 115, 105, 122, 101]
def w443 : List Nat := [96, 35, 91, 114, 101, 112, 114, 40, 123, 125, 41, 93, 96, 32, 99, 97, 110, 110, 111, 116, 32, 98, 101, 32, 117, 115, 101, 100, 32, 111, 110, 32, 101, 110, 117, 109, 115, 101, 116, 32, 118, 97, 114, 105, 97, 110, 116, 115, 46]
def w444 : List Nat := [35, 91, 101, 110, 117, 109, 115, 101, 116, 40, 115, 101, 114, 105, 97, 108, 105, 122, 101, 95, 97, 115, 95, 109, 97, 112, 41, 93, 32, 105, 115, 32, 100, 101, 112, 114, 101, 99, 97, 116, 101, 100, 46, 32, 85, 115, 101, 32, 96, 35, 91, 101, 110, 117, 109, 115, 101, 116, 40, 115, 101, 114, 105, 97, 108, 105, 122, 101, 95, 114, 101, 112, 114, 32, 61, 32, 34, 109, 97, 112, 34, 41, 93, 96, 32, 105, 110, 115, 116, 101, 97, 100, 46]
def w445 : List Nat := [35, 91, 101, 110, 117, 109, 115, 101, 116, 40, 115, 101, 114, 105, 97, 108, 105, 122, 101, 95, 97, 115, 95, 108, 105, 115, 116, 41, 93, 32, 105, 115, 32, 100, 101, 112, 114, 101, 99, 97, 116, 101, 100, 46, 32, 85, 115, 101, 32, 96, 35, 91, 101, 110, 117, 109, 115, 101, 116, 40, 115, 101, 114, 105, 97, 108, 105, 122, 101, 95, 114, 101, 112, 114, 32, 61, 32, 34, 108, 105, 115, 116, 34, 41, 93, 96, 32, 105, 110, 115, 116, 101, 97, 100, 46]
def w446 : List Nat := [115, 116, 100, 95, 100, 101, 112, 114, 101, 99, 97, 116, 105, 111, 110, 95, 119, 97, 114, 110, 105, 110, 103]
def w447 : List Nat := [102, 101, 97, 116, 117, 114, 101, 32, 61, 32, 34, 115, 116, 100, 34, 32, 105, 115, 32, 100, 101, 112, 101, 114, 99, 97, 116, 101, 100, 46, 32, 73, 102, 32, 121, 111, 117, 32, 114, 101, 110, 97, 109, 101, 32, 96, 101, 110, 117, 109, 115, 101, 116, 96, 44, 32, 117, 115, 101, 32, 102, 101, 97, 116, 117, 114, 101, 32, 61, 32, 34, 112, 114, 111, 99, 45, 109, 97, 99, 114, 111, 45, 99, 114, 97, 116, 101, 34, 32, 105, 110, 115, 116, 101, 97, 100, 46, 32, 73, 102, 32, 121, 111, 117, 32, 100, 111, 110, 39, 116, 44, 32, 114, 101, 109, 111, 118, 101, 32, 116, 104, 101, 32, 102, 101, 97, 116, 117, 114, 101, 46]
def w448 : List Nat := [96, 35, 91, 100, 101, 114, 105, 118, 101, 40, 69, 110, 117, 109, 83, 101, 116, 84, 121, 112, 101, 41, 93, 96, 32, 109, 97, 121, 32, 111, 110, 108, 121, 32, 98, 101, 32, 117, 115, 101, 100, 32, 111, 110, 32, 101, 110, 117, 109, 115]

/-- the tokens of enumset_derive/src/lib.rs -/
def toks : List Tok :=
  [⟨.p, w0, 1⟩, ⟨.p, w1, 1⟩, ⟨.p, w2, 1⟩, ⟨.id, w3, 1⟩, ⟨.p, w4, 1⟩, ⟨.str, w5, 1⟩, ⟨.p, w6, 1⟩, ⟨.id, w7, 3⟩,
   ⟨.id, w8, 3⟩, ⟨.id, w9, 3⟩, ⟨.p, w10, 3⟩, ⟨.id, w11, 5⟩, ⟨.id, w12, 5⟩, ⟨.p, w13, 5⟩, ⟨.id, w14, 5⟩, ⟨.p, w13, 5⟩,
   ⟨.id, w15, 5⟩, ⟨.p, w10, 5⟩, ⟨.id, w11, 6⟩, ⟨.id, w12, 6⟩, ⟨.p, w13, 6⟩, ⟨.p, w16, 6⟩, ⟨.p, w10, 6⟩,
   ⟨.id, w11, 7⟩, ⟨.id, w9, 7⟩, ⟨.p, w13, 7⟩, ⟨.id, w17, 7⟩, ⟨.p, w10, 7⟩, ⟨.id, w11, 8⟩, ⟨.id, w18, 8⟩,
   ⟨.p, w13, 8⟩, ⟨.p, w19, 8⟩, ⟨.id, w20, 8⟩, ⟨.p, w21, 8⟩, ⟨.id, w22, 8⟩, ⟨.p, w21, 8⟩, ⟨.id, w17, 8⟩,
   ⟨.id, w23, 8⟩, ⟨.id, w24, 8⟩, ⟨.p, w25, 8⟩, ⟨.p, w10, 8⟩, ⟨.id, w11, 9⟩, ⟨.id, w26, 9⟩, ⟨.p, w13, 9⟩,
   ⟨.p, w16, 9⟩, ⟨.p, w10, 9⟩, ⟨.id, w11, 10⟩, ⟨.id, w27, 10⟩, ⟨.p, w13, 10⟩, ⟨.p, w19, 10⟩, ⟨.id, w28, 10⟩,
   ⟨.p, w13, 10⟩, ⟨.id, w29, 10⟩, ⟨.p, w21, 10⟩, ⟨.id, w30, 10⟩, ⟨.p, w13, 10⟩, ⟨.id, w31, 10⟩, ⟨.p, w25, 10⟩,
   ⟨.p, w10, 10⟩, ⟨.id, w11, 11⟩, ⟨.id, w32, 11⟩, ⟨.p, w13, 11⟩, ⟨.id, w33, 11⟩, ⟨.p, w13, 11⟩, ⟨.id, w34, 11⟩,
   ⟨.p, w10, 11⟩, ⟨.id, w11, 12⟩, ⟨.id, w32, 12⟩, ⟨.p, w13, 12⟩, ⟨.p, w19, 12⟩, ⟨.id, w35, 12⟩, ⟨.p, w21, 12⟩,
   ⟨.id, w36, 12⟩, ⟨.p, w21, 12⟩, ⟨.p, w16, 12⟩, ⟨.p, w25, 12⟩, ⟨.p, w10, 12⟩, ⟨.id, w37, 15⟩, ⟨.id, w38, 15⟩,
   ⟨.p, w39, 15⟩, ⟨.id, w40, 15⟩, ⟨.p, w41, 15⟩, ⟨.p, w42, 15⟩, ⟨.id, w43, 15⟩, ⟨.p, w44, 15⟩, ⟨.id, w22, 15⟩,
   ⟨.p, w21, 15⟩, ⟨.id, w45, 15⟩, ⟨.p, w44, 15⟩, ⟨.id, w46, 15⟩, ⟨.id, w31, 15⟩, ⟨.p, w47, 15⟩, ⟨.p, w48, 15⟩,
   ⟨.id, w36, 15⟩, ⟨.p, w39, 15⟩, ⟨.id, w40, 15⟩, ⟨.p, w41, 15⟩, ⟨.p, w19, 15⟩, ⟨.id, w49, 16⟩, ⟨.p, w42, 16⟩,
   ⟨.id, w35, 16⟩, ⟨.p, w13, 16⟩, ⟨.id, w50, 16⟩, ⟨.p, w42, 16⟩, ⟨.id, w43, 16⟩, ⟨.p, w21, 16⟩, ⟨.id, w45, 16⟩,
   ⟨.p, w47, 16⟩, ⟨.p, w47, 16⟩, ⟨.p, w25, 17⟩, ⟨.p, w0, 20⟩, ⟨.p, w2, 20⟩, ⟨.id, w51, 20⟩, ⟨.p, w42, 20⟩,
   ⟨.id, w52, 20⟩, ⟨.p, w21, 20⟩, ⟨.id, w53, 20⟩, ⟨.p, w47, 20⟩, ⟨.p, w6, 20⟩, ⟨.p, w0, 21⟩, ⟨.p, w2, 21⟩,
   ⟨.id, w12, 21⟩, ⟨.p, w42, 21⟩, ⟨.id, w54, 21⟩, ⟨.p, w42, 21⟩, ⟨.id, w55, 21⟩, ⟨.p, w47, 21⟩, ⟨.p, w21, 21⟩,
   ⟨.id, w56, 21⟩, ⟨.p, w47, 21⟩, ⟨.p, w6, 21⟩, ⟨.id, w57, 22⟩, ⟨.id, w58, 22⟩, ⟨.p, w19, 22⟩, ⟨.id, w59, 23⟩,
   ⟨.p, w44, 23⟩, ⟨.id, w60, 23⟩, ⟨.p, w21, 23⟩, ⟨.id, w61, 24⟩, ⟨.p, w44, 24⟩, ⟨.id, w60, 24⟩, ⟨.p, w21, 24⟩,
   ⟨.p, w0, 25⟩, ⟨.p, w2, 25⟩, ⟨.id, w12, 25⟩, ⟨.p, w42, 25⟩, ⟨.id, w56, 25⟩, ⟨.p, w47, 25⟩, ⟨.p, w6, 25⟩,
   ⟨.id, w62, 26⟩, ⟨.p, w44, 26⟩, ⟨.id, w15, 26⟩, ⟨.p, w39, 26⟩, ⟨.id, w63, 26⟩, ⟨.p, w39, 26⟩, ⟨.id, w64, 26⟩,
   ⟨.p, w65, 26⟩, ⟨.p, w21, 26⟩, ⟨.p, w0, 27⟩, ⟨.p, w2, 27⟩, ⟨.id, w12, 27⟩, ⟨.p, w42, 27⟩, ⟨.id, w56, 27⟩,
   ⟨.p, w47, 27⟩, ⟨.p, w6, 27⟩, ⟨.id, w66, 28⟩, ⟨.p, w44, 28⟩, ⟨.id, w15, 28⟩, ⟨.p, w39, 28⟩, ⟨.id, w63, 28⟩,
   ⟨.p, w39, 28⟩, ⟨.id, w64, 28⟩, ⟨.p, w65, 28⟩, ⟨.p, w21, 28⟩, ⟨.id, w67, 29⟩, ⟨.p, w44, 29⟩, ⟨.id, w60, 29⟩,
   ⟨.p, w21, 29⟩, ⟨.p, w0, 30⟩, ⟨.p, w2, 30⟩, ⟨.id, w12, 30⟩, ⟨.p, w42, 30⟩, ⟨.id, w56, 30⟩, ⟨.p, w47, 30⟩,
   ⟨.p, w6, 30⟩, ⟨.id, w68, 31⟩, ⟨.p, w44, 31⟩, ⟨.id, w63, 31⟩, ⟨.p, w39, 31⟩, ⟨.id, w64, 31⟩, ⟨.p, w41, 31⟩,
   ⟨.p, w21, 31⟩, ⟨.id, w69, 34⟩, ⟨.p, w44, 34⟩, ⟨.id, w15, 34⟩, ⟨.p, w39, 34⟩, ⟨.id, w60, 34⟩, ⟨.p, w41, 34⟩,
   ⟨.p, w21, 34⟩, ⟨.id, w70, 35⟩, ⟨.p, w44, 35⟩, ⟨.id, w15, 35⟩, ⟨.p, w39, 35⟩, ⟨.id, w60, 35⟩, ⟨.p, w41, 35⟩,
   ⟨.p, w21, 35⟩, ⟨.p, w25, 36⟩, ⟨.p, w0, 39⟩, ⟨.p, w2, 39⟩, ⟨.id, w51, 39⟩, ⟨.p, w42, 39⟩, ⟨.id, w71, 39⟩,
   ⟨.p, w21, 39⟩, ⟨.id, w72, 39⟩, ⟨.p, w47, 39⟩, ⟨.p, w6, 39⟩, ⟨.id, w73, 40⟩, ⟨.id, w74, 40⟩, ⟨.p, w19, 40⟩,
   ⟨.id, w75, 42⟩, ⟨.p, w21, 42⟩, ⟨.id, w76, 44⟩, ⟨.p, w21, 44⟩, ⟨.id, w77, 46⟩, ⟨.p, w21, 46⟩, ⟨.id, w78, 48⟩,
   ⟨.p, w21, 48⟩, ⟨.id, w79, 50⟩, ⟨.p, w21, 50⟩, ⟨.id, w80, 52⟩, ⟨.p, w42, 52⟩, ⟨.id, w81, 52⟩, ⟨.p, w47, 52⟩,
   ⟨.p, w21, 52⟩, ⟨.p, w25, 53⟩, ⟨.id, w46, 54⟩, ⟨.id, w74, 54⟩, ⟨.p, w19, 54⟩, ⟨.id, w37, 56⟩, ⟨.id, w82, 56⟩,
   ⟨.p, w42, 56⟩, ⟨.p, w83, 56⟩, ⟨.id, w84, 56⟩, ⟨.p, w47, 56⟩, ⟨.p, w48, 56⟩, ⟨.id, w81, 56⟩, ⟨.p, w19, 56⟩,
   ⟨.id, w85, 57⟩, ⟨.id, w84, 57⟩, ⟨.p, w19, 57⟩, ⟨.id, w74, 58⟩, ⟨.p, w13, 58⟩, ⟨.id, w75, 58⟩, ⟨.p, w86, 58⟩,
   ⟨.int, w87, 58⟩, ⟨.p, w21, 58⟩, ⟨.id, w74, 59⟩, ⟨.p, w13, 59⟩, ⟨.id, w76, 59⟩, ⟨.p, w86, 59⟩, ⟨.int, w88, 59⟩,
   ⟨.p, w21, 59⟩, ⟨.id, w74, 60⟩, ⟨.p, w13, 60⟩, ⟨.id, w77, 60⟩, ⟨.p, w86, 60⟩, ⟨.int, w89, 60⟩, ⟨.p, w21, 60⟩,
   ⟨.id, w74, 61⟩, ⟨.p, w13, 61⟩, ⟨.id, w78, 61⟩, ⟨.p, w86, 61⟩, ⟨.int, w90, 61⟩, ⟨.p, w21, 61⟩, ⟨.id, w74, 62⟩,
   ⟨.p, w13, 62⟩, ⟨.id, w79, 62⟩, ⟨.p, w86, 62⟩, ⟨.int, w91, 62⟩, ⟨.p, w21, 62⟩, ⟨.id, w74, 63⟩, ⟨.p, w13, 63⟩,
   ⟨.id, w80, 63⟩, ⟨.p, w42, 63⟩, ⟨.id, w92, 63⟩, ⟨.p, w47, 63⟩, ⟨.p, w86, 63⟩, ⟨.id, w92, 63⟩, ⟨.p, w16, 63⟩,
   ⟨.int, w90, 63⟩, ⟨.p, w21, 63⟩, ⟨.p, w25, 64⟩, ⟨.p, w25, 65⟩, ⟨.p, w25, 66⟩, ⟨.p, w0, 69⟩, ⟨.p, w2, 69⟩,
   ⟨.id, w51, 69⟩, ⟨.p, w42, 69⟩, ⟨.id, w71, 69⟩, ⟨.p, w21, 69⟩, ⟨.id, w72, 69⟩, ⟨.p, w47, 69⟩, ⟨.p, w6, 69⟩,
   ⟨.id, w73, 70⟩, ⟨.id, w93, 70⟩, ⟨.p, w19, 70⟩, ⟨.id, w75, 72⟩, ⟨.p, w21, 72⟩, ⟨.id, w76, 74⟩, ⟨.p, w21, 74⟩,
   ⟨.id, w77, 76⟩, ⟨.p, w21, 76⟩, ⟨.id, w78, 78⟩, ⟨.p, w21, 78⟩, ⟨.id, w79, 80⟩, ⟨.p, w21, 80⟩, ⟨.id, w94, 82⟩,
   ⟨.p, w21, 82⟩, ⟨.id, w95, 84⟩, ⟨.p, w21, 84⟩, ⟨.id, w80, 86⟩, ⟨.p, w21, 86⟩, ⟨.p, w25, 87⟩, ⟨.id, w46, 88⟩,
   ⟨.id, w93, 88⟩, ⟨.p, w19, 88⟩, ⟨.id, w37, 90⟩, ⟨.id, w82, 90⟩, ⟨.p, w42, 90⟩, ⟨.p, w83, 90⟩, ⟨.id, w84, 90⟩,
   ⟨.p, w47, 90⟩, ⟨.p, w48, 90⟩, ⟨.id, w63, 90⟩, ⟨.p, w39, 90⟩, ⟨.id, w81, 90⟩, ⟨.p, w41, 90⟩, ⟨.p, w19, 90⟩,
   ⟨.id, w85, 91⟩, ⟨.id, w84, 91⟩, ⟨.p, w19, 91⟩, ⟨.id, w93, 92⟩, ⟨.p, w13, 92⟩, ⟨.id, w75, 92⟩, ⟨.p, w86, 92⟩,
   ⟨.id, w96, 92⟩, ⟨.p, w42, 92⟩, ⟨.int, w87, 92⟩, ⟨.p, w47, 92⟩, ⟨.p, w21, 92⟩, ⟨.id, w93, 93⟩, ⟨.p, w13, 93⟩,
   ⟨.id, w76, 93⟩, ⟨.p, w86, 93⟩, ⟨.id, w96, 93⟩, ⟨.p, w42, 93⟩, ⟨.int, w88, 93⟩, ⟨.p, w47, 93⟩, ⟨.p, w21, 93⟩,
   ⟨.id, w93, 94⟩, ⟨.p, w13, 94⟩, ⟨.id, w77, 94⟩, ⟨.p, w86, 94⟩, ⟨.id, w96, 94⟩, ⟨.p, w42, 94⟩, ⟨.int, w89, 94⟩,
   ⟨.p, w47, 94⟩, ⟨.p, w21, 94⟩, ⟨.id, w93, 95⟩, ⟨.p, w13, 95⟩, ⟨.id, w78, 95⟩, ⟨.p, w86, 95⟩, ⟨.id, w96, 95⟩,
   ⟨.p, w42, 95⟩, ⟨.int, w90, 95⟩, ⟨.p, w47, 95⟩, ⟨.p, w21, 95⟩, ⟨.id, w93, 96⟩, ⟨.p, w13, 96⟩, ⟨.id, w79, 96⟩,
   ⟨.p, w86, 96⟩, ⟨.id, w96, 96⟩, ⟨.p, w42, 96⟩, ⟨.int, w91, 96⟩, ⟨.p, w47, 96⟩, ⟨.p, w21, 96⟩, ⟨.id, w93, 97⟩,
   ⟨.p, w13, 97⟩, ⟨.id, w94, 97⟩, ⟨.p, w86, 97⟩, ⟨.id, w97, 97⟩, ⟨.p, w21, 97⟩, ⟨.id, w93, 98⟩, ⟨.p, w13, 98⟩,
   ⟨.id, w95, 98⟩, ⟨.p, w86, 98⟩, ⟨.id, w97, 98⟩, ⟨.p, w21, 98⟩, ⟨.id, w93, 99⟩, ⟨.p, w13, 99⟩, ⟨.id, w80, 99⟩,
   ⟨.p, w86, 99⟩, ⟨.id, w97, 99⟩, ⟨.p, w21, 99⟩, ⟨.p, w25, 100⟩, ⟨.p, w25, 101⟩, ⟨.p, w25, 102⟩, ⟨.id, w57, 105⟩,
   ⟨.id, w98, 105⟩, ⟨.p, w19, 105⟩, ⟨.id, w99, 107⟩, ⟨.p, w44, 107⟩, ⟨.id, w100, 107⟩, ⟨.p, w21, 107⟩,
   ⟨.id, w101, 109⟩, ⟨.p, w44, 109⟩, ⟨.id, w102, 109⟩, ⟨.p, w21, 109⟩, ⟨.p, w25, 110⟩, ⟨.p, w0, 113⟩, ⟨.p, w2, 113⟩,
   ⟨.id, w103, 113⟩, ⟨.p, w42, 113⟩, ⟨.id, w104, 113⟩, ⟨.p, w47, 113⟩, ⟨.p, w6, 113⟩, ⟨.id, w57, 114⟩,
   ⟨.id, w105, 114⟩, ⟨.p, w19, 114⟩, ⟨.id, w99, 116⟩, ⟨.p, w44, 116⟩, ⟨.id, w100, 116⟩, ⟨.p, w21, 116⟩,
   ⟨.id, w68, 118⟩, ⟨.p, w44, 118⟩, ⟨.id, w63, 118⟩, ⟨.p, w39, 118⟩, ⟨.id, w100, 118⟩, ⟨.p, w41, 118⟩,
   ⟨.p, w21, 118⟩, ⟨.id, w106, 120⟩, ⟨.p, w44, 120⟩, ⟨.id, w63, 120⟩, ⟨.p, w39, 120⟩, ⟨.id, w74, 120⟩,
   ⟨.p, w41, 120⟩, ⟨.p, w21, 120⟩, ⟨.id, w107, 122⟩, ⟨.p, w44, 122⟩, ⟨.id, w60, 122⟩, ⟨.p, w21, 122⟩,
   ⟨.id, w108, 124⟩, ⟨.p, w44, 124⟩, ⟨.id, w63, 124⟩, ⟨.p, w39, 124⟩, ⟨.id, w93, 124⟩, ⟨.p, w41, 124⟩,
   ⟨.p, w21, 124⟩, ⟨.id, w109, 126⟩, ⟨.p, w44, 126⟩, ⟨.id, w110, 126⟩, ⟨.p, w39, 126⟩, ⟨.id, w98, 126⟩,
   ⟨.p, w41, 126⟩, ⟨.p, w21, 126⟩, ⟨.id, w111, 128⟩, ⟨.p, w44, 128⟩, ⟨.id, w112, 128⟩, ⟨.p, w21, 128⟩,
   ⟨.id, w113, 131⟩, ⟨.p, w44, 131⟩, ⟨.id, w102, 131⟩, ⟨.p, w21, 131⟩, ⟨.id, w114, 133⟩, ⟨.p, w44, 133⟩,
   ⟨.id, w63, 133⟩, ⟨.p, w39, 133⟩, ⟨.id, w22, 133⟩, ⟨.p, w41, 133⟩, ⟨.p, w21, 133⟩, ⟨.id, w115, 135⟩,
   ⟨.p, w44, 135⟩, ⟨.id, w102, 135⟩, ⟨.p, w21, 135⟩, ⟨.id, w116, 137⟩, ⟨.p, w44, 137⟩, ⟨.id, w29, 137⟩,
   ⟨.p, w39, 137⟩, ⟨.id, w64, 137⟩, ⟨.p, w41, 137⟩, ⟨.p, w21, 137⟩, ⟨.id, w117, 139⟩, ⟨.p, w44, 139⟩,
   ⟨.id, w29, 139⟩, ⟨.p, w39, 139⟩, ⟨.id, w102, 139⟩, ⟨.p, w41, 139⟩, ⟨.p, w21, 139⟩, ⟨.id, w59, 142⟩,
   ⟨.p, w44, 142⟩, ⟨.id, w60, 142⟩, ⟨.p, w21, 142⟩, ⟨.id, w61, 144⟩, ⟨.p, w44, 144⟩, ⟨.id, w60, 144⟩, ⟨.p, w21, 144⟩,
   ⟨.id, w67, 146⟩, ⟨.p, w44, 146⟩, ⟨.id, w60, 146⟩, ⟨.p, w21, 146⟩, ⟨.p, w25, 147⟩, ⟨.id, w46, 148⟩,
   ⟨.id, w105, 148⟩, ⟨.p, w19, 148⟩, ⟨.id, w37, 149⟩, ⟨.id, w50, 149⟩, ⟨.p, w42, 149⟩, ⟨.id, w118, 149⟩,
   ⟨.p, w44, 149⟩, ⟨.p, w83, 149⟩, ⟨.id, w119, 149⟩, ⟨.p, w21, 149⟩, ⟨.id, w120, 149⟩, ⟨.p, w44, 149⟩,
   ⟨.p, w83, 149⟩, ⟨.id, w58, 149⟩, ⟨.p, w47, 149⟩, ⟨.p, w48, 149⟩, ⟨.id, w105, 149⟩, ⟨.p, w19, 149⟩,
   ⟨.id, w105, 150⟩, ⟨.p, w19, 150⟩, ⟨.id, w99, 151⟩, ⟨.p, w44, 151⟩, ⟨.id, w118, 151⟩, ⟨.p, w121, 151⟩,
   ⟨.id, w122, 151⟩, ⟨.p, w121, 151⟩, ⟨.id, w123, 151⟩, ⟨.p, w42, 151⟩, ⟨.p, w47, 151⟩, ⟨.p, w21, 151⟩,
   ⟨.id, w68, 152⟩, ⟨.p, w44, 152⟩, ⟨.id, w120, 152⟩, ⟨.p, w121, 153⟩, ⟨.id, w68, 153⟩, ⟨.p, w121, 154⟩,
   ⟨.id, w124, 154⟩, ⟨.p, w42, 154⟩, ⟨.p, w47, 154⟩, ⟨.p, w121, 155⟩, ⟨.id, w125, 155⟩, ⟨.p, w42, 155⟩,
   ⟨.p, w126, 155⟩, ⟨.id, w127, 155⟩, ⟨.p, w126, 155⟩, ⟨.id, w100, 155⟩, ⟨.p, w13, 155⟩, ⟨.id, w50, 155⟩,
   ⟨.p, w42, 155⟩, ⟨.id, w127, 155⟩, ⟨.p, w21, 155⟩, ⟨.id, w22, 155⟩, ⟨.p, w13, 155⟩, ⟨.id, w128, 155⟩,
   ⟨.p, w42, 155⟩, ⟨.p, w47, 155⟩, ⟨.p, w47, 155⟩, ⟨.p, w47, 155⟩, ⟨.p, w21, 155⟩, ⟨.id, w106, 156⟩, ⟨.p, w44, 156⟩,
   ⟨.id, w97, 156⟩, ⟨.p, w21, 156⟩, ⟨.id, w107, 157⟩, ⟨.p, w44, 157⟩, ⟨.id, w129, 157⟩, ⟨.p, w21, 157⟩,
   ⟨.id, w108, 158⟩, ⟨.p, w44, 158⟩, ⟨.id, w97, 158⟩, ⟨.p, w21, 158⟩, ⟨.id, w109, 159⟩, ⟨.p, w44, 159⟩,
   ⟨.id, w110, 159⟩, ⟨.p, w13, 159⟩, ⟨.id, w50, 159⟩, ⟨.p, w42, 159⟩, ⟨.p, w47, 159⟩, ⟨.p, w21, 159⟩,
   ⟨.id, w111, 160⟩, ⟨.p, w44, 160⟩, ⟨.id, w118, 160⟩, ⟨.p, w121, 160⟩, ⟨.id, w111, 160⟩, ⟨.p, w121, 160⟩,
   ⟨.id, w123, 160⟩, ⟨.p, w42, 160⟩, ⟨.p, w47, 160⟩, ⟨.p, w21, 160⟩, ⟨.id, w113, 161⟩, ⟨.p, w44, 161⟩,
   ⟨.int, w130, 161⟩, ⟨.p, w21, 161⟩, ⟨.id, w114, 162⟩, ⟨.p, w44, 162⟩, ⟨.id, w97, 162⟩, ⟨.p, w21, 162⟩,
   ⟨.id, w115, 163⟩, ⟨.p, w44, 163⟩, ⟨.int, w130, 163⟩, ⟨.p, w21, 163⟩, ⟨.id, w116, 164⟩, ⟨.p, w44, 164⟩,
   ⟨.id, w29, 164⟩, ⟨.p, w13, 164⟩, ⟨.id, w50, 164⟩, ⟨.p, w42, 164⟩, ⟨.p, w47, 164⟩, ⟨.p, w21, 164⟩,
   ⟨.id, w117, 165⟩, ⟨.p, w44, 165⟩, ⟨.id, w29, 165⟩, ⟨.p, w13, 165⟩, ⟨.id, w50, 165⟩, ⟨.p, w42, 165⟩,
   ⟨.p, w47, 165⟩, ⟨.p, w21, 165⟩, ⟨.id, w59, 166⟩, ⟨.p, w44, 166⟩, ⟨.id, w120, 166⟩, ⟨.p, w121, 166⟩,
   ⟨.id, w59, 166⟩, ⟨.p, w21, 166⟩, ⟨.id, w61, 167⟩, ⟨.p, w44, 167⟩, ⟨.id, w120, 167⟩, ⟨.p, w121, 167⟩,
   ⟨.id, w61, 167⟩, ⟨.p, w21, 167⟩, ⟨.id, w67, 168⟩, ⟨.p, w44, 168⟩, ⟨.id, w120, 168⟩, ⟨.p, w121, 168⟩,
   ⟨.id, w67, 168⟩, ⟨.p, w21, 168⟩, ⟨.p, w25, 169⟩, ⟨.p, w25, 170⟩, ⟨.id, w37, 173⟩, ⟨.id, w131, 173⟩,
   ⟨.p, w42, 173⟩, ⟨.p, w83, 173⟩, ⟨.id, w132, 173⟩, ⟨.id, w84, 173⟩, ⟨.p, w21, 173⟩, ⟨.id, w43, 173⟩,
   ⟨.p, w44, 173⟩, ⟨.id, w22, 173⟩, ⟨.p, w21, 173⟩, ⟨.id, w133, 173⟩, ⟨.p, w44, 173⟩, ⟨.p, w83, 173⟩,
   ⟨.id, w134, 173⟩, ⟨.p, w47, 173⟩, ⟨.p, w48, 173⟩, ⟨.id, w36, 173⟩, ⟨.p, w39, 173⟩, ⟨.p, w42, 173⟩, ⟨.p, w47, 173⟩,
   ⟨.p, w41, 173⟩, ⟨.p, w19, 173⟩, ⟨.id, w85, 174⟩, ⟨.id, w133, 174⟩, ⟨.p, w19, 174⟩, ⟨.str, w135, 175⟩,
   ⟨.p, w86, 175⟩, ⟨.id, w84, 175⟩, ⟨.p, w121, 175⟩, ⟨.id, w108, 175⟩, ⟨.p, w4, 175⟩, ⟨.id, w96, 175⟩,
   ⟨.p, w42, 175⟩, ⟨.id, w93, 175⟩, ⟨.p, w13, 175⟩, ⟨.id, w75, 175⟩, ⟨.p, w47, 175⟩, ⟨.p, w21, 175⟩,
   ⟨.str, w136, 176⟩, ⟨.p, w86, 176⟩, ⟨.id, w84, 176⟩, ⟨.p, w121, 176⟩, ⟨.id, w108, 176⟩, ⟨.p, w4, 176⟩,
   ⟨.id, w96, 176⟩, ⟨.p, w42, 176⟩, ⟨.id, w93, 176⟩, ⟨.p, w13, 176⟩, ⟨.id, w76, 176⟩, ⟨.p, w47, 176⟩, ⟨.p, w21, 176⟩,
   ⟨.str, w102, 177⟩, ⟨.p, w86, 177⟩, ⟨.id, w84, 177⟩, ⟨.p, w121, 177⟩, ⟨.id, w108, 177⟩, ⟨.p, w4, 177⟩,
   ⟨.id, w96, 177⟩, ⟨.p, w42, 177⟩, ⟨.id, w93, 177⟩, ⟨.p, w13, 177⟩, ⟨.id, w77, 177⟩, ⟨.p, w47, 177⟩, ⟨.p, w21, 177⟩,
   ⟨.str, w137, 178⟩, ⟨.p, w86, 178⟩, ⟨.id, w84, 178⟩, ⟨.p, w121, 178⟩, ⟨.id, w108, 178⟩, ⟨.p, w4, 178⟩,
   ⟨.id, w96, 178⟩, ⟨.p, w42, 178⟩, ⟨.id, w93, 178⟩, ⟨.p, w13, 178⟩, ⟨.id, w78, 178⟩, ⟨.p, w47, 178⟩, ⟨.p, w21, 178⟩,
   ⟨.str, w138, 179⟩, ⟨.p, w86, 179⟩, ⟨.id, w84, 179⟩, ⟨.p, w121, 179⟩, ⟨.id, w108, 179⟩, ⟨.p, w4, 179⟩,
   ⟨.id, w96, 179⟩, ⟨.p, w42, 179⟩, ⟨.id, w93, 179⟩, ⟨.p, w13, 179⟩, ⟨.id, w79, 179⟩, ⟨.p, w47, 179⟩, ⟨.p, w21, 179⟩,
   ⟨.str, w139, 180⟩, ⟨.p, w86, 180⟩, ⟨.id, w84, 180⟩, ⟨.p, w121, 180⟩, ⟨.id, w108, 180⟩, ⟨.p, w4, 180⟩,
   ⟨.id, w96, 180⟩, ⟨.p, w42, 180⟩, ⟨.id, w93, 180⟩, ⟨.p, w13, 180⟩, ⟨.id, w94, 180⟩, ⟨.p, w47, 180⟩, ⟨.p, w21, 180⟩,
   ⟨.str, w125, 181⟩, ⟨.p, w86, 181⟩, ⟨.id, w84, 181⟩, ⟨.p, w121, 181⟩, ⟨.id, w108, 181⟩, ⟨.p, w4, 181⟩,
   ⟨.id, w96, 181⟩, ⟨.p, w42, 181⟩, ⟨.id, w93, 181⟩, ⟨.p, w13, 181⟩, ⟨.id, w95, 181⟩, ⟨.p, w47, 181⟩, ⟨.p, w21, 181⟩,
   ⟨.str, w140, 182⟩, ⟨.p, w86, 182⟩, ⟨.id, w84, 182⟩, ⟨.p, w121, 182⟩, ⟨.id, w108, 182⟩, ⟨.p, w4, 182⟩,
   ⟨.id, w96, 182⟩, ⟨.p, w42, 182⟩, ⟨.id, w93, 182⟩, ⟨.p, w13, 182⟩, ⟨.id, w80, 182⟩, ⟨.p, w47, 182⟩, ⟨.p, w21, 182⟩,
   ⟨.id, w141, 183⟩, ⟨.p, w86, 183⟩, ⟨.id, w38, 183⟩, ⟨.p, w42, 183⟩, ⟨.id, w43, 183⟩, ⟨.p, w21, 183⟩,
   ⟨.id, w142, 183⟩, ⟨.p, w1, 183⟩, ⟨.p, w42, 183⟩, ⟨.str, w143, 183⟩, ⟨.p, w21, 183⟩, ⟨.id, w133, 183⟩,
   ⟨.p, w47, 183⟩, ⟨.p, w47, 183⟩, ⟨.p, w144, 183⟩, ⟨.p, w21, 183⟩, ⟨.p, w25, 184⟩, ⟨.id, w145, 185⟩, ⟨.p, w42, 185⟩,
   ⟨.p, w42, 185⟩, ⟨.p, w47, 185⟩, ⟨.p, w47, 185⟩, ⟨.p, w25, 186⟩, ⟨.id, w37, 189⟩, ⟨.id, w146, 189⟩, ⟨.p, w42, 189⟩,
   ⟨.p, w83, 189⟩, ⟨.id, w132, 189⟩, ⟨.id, w84, 189⟩, ⟨.p, w21, 189⟩, ⟨.id, w43, 189⟩, ⟨.p, w44, 189⟩,
   ⟨.id, w22, 189⟩, ⟨.p, w21, 189⟩, ⟨.id, w133, 189⟩, ⟨.p, w44, 189⟩, ⟨.p, w83, 189⟩, ⟨.id, w134, 189⟩,
   ⟨.p, w47, 189⟩, ⟨.p, w48, 189⟩, ⟨.id, w36, 189⟩, ⟨.p, w39, 189⟩, ⟨.p, w42, 189⟩, ⟨.p, w47, 189⟩, ⟨.p, w41, 189⟩,
   ⟨.p, w19, 189⟩, ⟨.id, w85, 190⟩, ⟨.id, w133, 190⟩, ⟨.p, w19, 190⟩, ⟨.str, w135, 191⟩, ⟨.p, w86, 191⟩,
   ⟨.id, w84, 191⟩, ⟨.p, w121, 191⟩, ⟨.id, w106, 191⟩, ⟨.p, w4, 191⟩, ⟨.id, w96, 191⟩, ⟨.p, w42, 191⟩,
   ⟨.id, w74, 191⟩, ⟨.p, w13, 191⟩, ⟨.id, w75, 191⟩, ⟨.p, w47, 191⟩, ⟨.p, w21, 191⟩, ⟨.str, w136, 192⟩,
   ⟨.p, w86, 192⟩, ⟨.id, w84, 192⟩, ⟨.p, w121, 192⟩, ⟨.id, w106, 192⟩, ⟨.p, w4, 192⟩, ⟨.id, w96, 192⟩,
   ⟨.p, w42, 192⟩, ⟨.id, w74, 192⟩, ⟨.p, w13, 192⟩, ⟨.id, w76, 192⟩, ⟨.p, w47, 192⟩, ⟨.p, w21, 192⟩,
   ⟨.str, w102, 193⟩, ⟨.p, w86, 193⟩, ⟨.id, w84, 193⟩, ⟨.p, w121, 193⟩, ⟨.id, w106, 193⟩, ⟨.p, w4, 193⟩,
   ⟨.id, w96, 193⟩, ⟨.p, w42, 193⟩, ⟨.id, w74, 193⟩, ⟨.p, w13, 193⟩, ⟨.id, w77, 193⟩, ⟨.p, w47, 193⟩, ⟨.p, w21, 193⟩,
   ⟨.str, w137, 194⟩, ⟨.p, w86, 194⟩, ⟨.id, w84, 194⟩, ⟨.p, w121, 194⟩, ⟨.id, w106, 194⟩, ⟨.p, w4, 194⟩,
   ⟨.id, w96, 194⟩, ⟨.p, w42, 194⟩, ⟨.id, w74, 194⟩, ⟨.p, w13, 194⟩, ⟨.id, w78, 194⟩, ⟨.p, w47, 194⟩, ⟨.p, w21, 194⟩,
   ⟨.str, w138, 195⟩, ⟨.p, w86, 195⟩, ⟨.id, w84, 195⟩, ⟨.p, w121, 195⟩, ⟨.id, w106, 195⟩, ⟨.p, w4, 195⟩,
   ⟨.id, w96, 195⟩, ⟨.p, w42, 195⟩, ⟨.id, w74, 195⟩, ⟨.p, w13, 195⟩, ⟨.id, w79, 195⟩, ⟨.p, w47, 195⟩, ⟨.p, w21, 195⟩,
   ⟨.str, w140, 196⟩, ⟨.p, w86, 196⟩, ⟨.id, w84, 196⟩, ⟨.p, w121, 196⟩, ⟨.id, w107, 196⟩, ⟨.p, w4, 196⟩,
   ⟨.id, w147, 196⟩, ⟨.p, w21, 196⟩, ⟨.id, w141, 197⟩, ⟨.p, w86, 197⟩, ⟨.id, w38, 197⟩, ⟨.p, w42, 197⟩,
   ⟨.id, w43, 197⟩, ⟨.p, w21, 197⟩, ⟨.id, w142, 197⟩, ⟨.p, w1, 197⟩, ⟨.p, w42, 197⟩, ⟨.str, w148, 197⟩,
   ⟨.p, w21, 197⟩, ⟨.id, w133, 197⟩, ⟨.p, w47, 197⟩, ⟨.p, w47, 197⟩, ⟨.p, w144, 197⟩, ⟨.p, w21, 197⟩, ⟨.p, w25, 198⟩,
   ⟨.id, w145, 199⟩, ⟨.p, w42, 199⟩, ⟨.p, w42, 199⟩, ⟨.p, w47, 199⟩, ⟨.p, w47, 199⟩, ⟨.p, w25, 200⟩, ⟨.id, w37, 203⟩,
   ⟨.id, w149, 203⟩, ⟨.p, w42, 203⟩, ⟨.p, w83, 203⟩, ⟨.id, w132, 203⟩, ⟨.id, w84, 203⟩, ⟨.p, w21, 203⟩,
   ⟨.id, w150, 203⟩, ⟨.p, w44, 203⟩, ⟨.p, w83, 203⟩, ⟨.id, w151, 203⟩, ⟨.p, w47, 203⟩, ⟨.p, w48, 203⟩,
   ⟨.id, w36, 203⟩, ⟨.p, w39, 203⟩, ⟨.p, w42, 203⟩, ⟨.p, w47, 203⟩, ⟨.p, w41, 203⟩, ⟨.p, w19, 203⟩, ⟨.id, w152, 204⟩,
   ⟨.id, w84, 204⟩, ⟨.p, w121, 204⟩, ⟨.id, w116, 204⟩, ⟨.p, w121, 204⟩, ⟨.id, w153, 204⟩, ⟨.p, w42, 204⟩,
   ⟨.p, w83, 204⟩, ⟨.id, w150, 204⟩, ⟨.p, w121, 204⟩, ⟨.id, w122, 204⟩, ⟨.p, w121, 204⟩, ⟨.id, w154, 204⟩,
   ⟨.p, w42, 204⟩, ⟨.p, w47, 204⟩, ⟨.p, w47, 204⟩, ⟨.p, w19, 204⟩, ⟨.id, w38, 205⟩, ⟨.p, w42, 205⟩, ⟨.id, w150, 205⟩,
   ⟨.p, w121, 205⟩, ⟨.id, w43, 205⟩, ⟨.p, w42, 205⟩, ⟨.p, w47, 205⟩, ⟨.p, w21, 205⟩, ⟨.str, w155, 205⟩,
   ⟨.p, w47, 205⟩, ⟨.p, w25, 206⟩, ⟨.id, w156, 206⟩, ⟨.id, w152, 206⟩, ⟨.id, w157, 206⟩, ⟨.id, w158, 206⟩,
   ⟨.p, w13, 206⟩, ⟨.id, w159, 206⟩, ⟨.p, w4, 206⟩, ⟨.id, w150, 206⟩, ⟨.p, w121, 206⟩, ⟨.id, w160, 206⟩,
   ⟨.p, w19, 206⟩, ⟨.id, w152, 208⟩, ⟨.id, w157, 208⟩, ⟨.id, w96, 208⟩, ⟨.p, w42, 208⟩, ⟨.p, w42, 208⟩,
   ⟨.id, w141, 208⟩, ⟨.p, w21, 208⟩, ⟨.id, w161, 208⟩, ⟨.p, w47, 208⟩, ⟨.p, w47, 208⟩, ⟨.p, w4, 208⟩, ⟨.p, w83, 208⟩,
   ⟨.id, w150, 208⟩, ⟨.p, w121, 208⟩, ⟨.id, w162, 208⟩, ⟨.p, w19, 208⟩, ⟨.id, w152, 209⟩, ⟨.id, w157, 209⟩,
   ⟨.id, w163, 209⟩, ⟨.p, w13, 209⟩, ⟨.id, w164, 209⟩, ⟨.p, w42, 209⟩, ⟨.id, w165, 209⟩, ⟨.p, w19, 209⟩,
   ⟨.id, w166, 209⟩, ⟨.p, w44, 209⟩, ⟨.id, w164, 209⟩, ⟨.p, w13, 209⟩, ⟨.id, w167, 209⟩, ⟨.p, w42, 209⟩,
   ⟨.id, w168, 209⟩, ⟨.p, w47, 209⟩, ⟨.p, w21, 209⟩, ⟨.p, w169, 209⟩, ⟨.p, w25, 209⟩, ⟨.p, w47, 209⟩, ⟨.p, w4, 209⟩,
   ⟨.id, w161, 209⟩, ⟨.p, w19, 209⟩, ⟨.id, w85, 210⟩, ⟨.id, w168, 210⟩, ⟨.p, w121, 210⟩, ⟨.id, w170, 210⟩,
   ⟨.p, w42, 210⟩, ⟨.p, w47, 210⟩, ⟨.p, w19, 210⟩, ⟨.id, w145, 211⟩, ⟨.p, w42, 211⟩, ⟨.id, w171, 211⟩,
   ⟨.p, w47, 211⟩, ⟨.p, w86, 211⟩, ⟨.id, w84, 211⟩, ⟨.p, w121, 211⟩, ⟨.id, w115, 211⟩, ⟨.p, w4, 211⟩,
   ⟨.id, w171, 211⟩, ⟨.p, w21, 211⟩, ⟨.id, w49, 212⟩, ⟨.p, w42, 212⟩, ⟨.id, w141, 212⟩, ⟨.p, w47, 212⟩,
   ⟨.p, w86, 212⟩, ⟨.id, w38, 212⟩, ⟨.p, w42, 212⟩, ⟨.id, w161, 212⟩, ⟨.p, w121, 212⟩, ⟨.id, w43, 212⟩,
   ⟨.p, w42, 212⟩, ⟨.p, w47, 212⟩, ⟨.p, w21, 212⟩, ⟨.str, w172, 212⟩, ⟨.p, w47, 212⟩, ⟨.p, w144, 212⟩,
   ⟨.p, w21, 212⟩, ⟨.p, w25, 213⟩, ⟨.p, w25, 214⟩, ⟨.id, w156, 214⟩, ⟨.id, w152, 214⟩, ⟨.id, w157, 214⟩,
   ⟨.id, w163, 214⟩, ⟨.p, w13, 214⟩, ⟨.id, w173, 214⟩, ⟨.p, w42, 214⟩, ⟨.id, w174, 214⟩, ⟨.p, w19, 214⟩,
   ⟨.id, w175, 214⟩, ⟨.p, w44, 214⟩, ⟨.id, w176, 214⟩, ⟨.p, w13, 214⟩, ⟨.id, w177, 214⟩, ⟨.p, w42, 214⟩,
   ⟨.id, w141, 214⟩, ⟨.p, w47, 214⟩, ⟨.p, w21, 214⟩, ⟨.p, w169, 214⟩, ⟨.p, w25, 214⟩, ⟨.p, w47, 214⟩, ⟨.p, w4, 214⟩,
   ⟨.id, w161, 214⟩, ⟨.p, w19, 214⟩, ⟨.id, w38, 215⟩, ⟨.p, w42, 215⟩, ⟨.id, w161, 215⟩, ⟨.p, w121, 215⟩,
   ⟨.id, w43, 215⟩, ⟨.p, w42, 215⟩, ⟨.p, w47, 215⟩, ⟨.p, w21, 215⟩, ⟨.str, w178, 215⟩, ⟨.p, w47, 215⟩,
   ⟨.p, w144, 215⟩, ⟨.p, w10, 215⟩, ⟨.p, w25, 216⟩, ⟨.id, w156, 216⟩, ⟨.p, w19, 216⟩, ⟨.id, w38, 217⟩,
   ⟨.p, w42, 217⟩, ⟨.id, w150, 217⟩, ⟨.p, w121, 217⟩, ⟨.id, w43, 217⟩, ⟨.p, w42, 217⟩, ⟨.p, w47, 217⟩,
   ⟨.p, w21, 217⟩, ⟨.str, w179, 217⟩, ⟨.p, w47, 217⟩, ⟨.p, w144, 217⟩, ⟨.p, w10, 217⟩, ⟨.p, w25, 218⟩,
   ⟨.p, w25, 219⟩, ⟨.id, w157, 222⟩, ⟨.id, w162, 222⟩, ⟨.p, w4, 222⟩, ⟨.id, w84, 222⟩, ⟨.p, w121, 222⟩,
   ⟨.id, w115, 222⟩, ⟨.p, w10, 222⟩, ⟨.id, w152, 223⟩, ⟨.id, w162, 223⟩, ⟨.p, w180, 223⟩, ⟨.int, w181, 223⟩,
   ⟨.p, w19, 223⟩, ⟨.id, w38, 224⟩, ⟨.p, w42, 224⟩, ⟨.id, w150, 224⟩, ⟨.p, w121, 224⟩, ⟨.id, w43, 224⟩,
   ⟨.p, w42, 224⟩, ⟨.p, w47, 224⟩, ⟨.p, w21, 224⟩, ⟨.str, w182, 224⟩, ⟨.p, w47, 224⟩, ⟨.p, w144, 224⟩,
   ⟨.p, w10, 224⟩, ⟨.p, w25, 225⟩, ⟨.id, w152, 226⟩, ⟨.id, w84, 226⟩, ⟨.p, w121, 226⟩, ⟨.id, w117, 226⟩,
   ⟨.p, w121, 226⟩, ⟨.id, w153, 226⟩, ⟨.p, w42, 226⟩, ⟨.p, w83, 226⟩, ⟨.id, w162, 226⟩, ⟨.p, w47, 226⟩,
   ⟨.p, w19, 226⟩, ⟨.id, w38, 227⟩, ⟨.p, w42, 227⟩, ⟨.id, w150, 227⟩, ⟨.p, w121, 227⟩, ⟨.id, w43, 227⟩,
   ⟨.p, w42, 227⟩, ⟨.p, w47, 227⟩, ⟨.p, w21, 227⟩, ⟨.str, w183, 227⟩, ⟨.p, w47, 227⟩, ⟨.p, w144, 227⟩,
   ⟨.p, w10, 227⟩, ⟨.p, w25, 228⟩, ⟨.id, w84, 231⟩, ⟨.p, w121, 231⟩, ⟨.id, w115, 231⟩, ⟨.p, w184, 231⟩,
   ⟨.int, w185, 231⟩, ⟨.p, w10, 231⟩, ⟨.id, w152, 232⟩, ⟨.id, w162, 232⟩, ⟨.p, w41, 232⟩, ⟨.id, w84, 232⟩,
   ⟨.p, w121, 232⟩, ⟨.id, w113, 232⟩, ⟨.p, w19, 232⟩, ⟨.id, w84, 233⟩, ⟨.p, w121, 233⟩, ⟨.id, w113, 233⟩,
   ⟨.p, w4, 233⟩, ⟨.id, w162, 233⟩, ⟨.p, w10, 233⟩, ⟨.id, w84, 234⟩, ⟨.p, w121, 234⟩, ⟨.id, w114, 234⟩,
   ⟨.p, w4, 234⟩, ⟨.id, w96, 234⟩, ⟨.p, w42, 234⟩, ⟨.id, w150, 234⟩, ⟨.p, w121, 234⟩, ⟨.id, w43, 234⟩,
   ⟨.p, w42, 234⟩, ⟨.p, w47, 234⟩, ⟨.p, w47, 234⟩, ⟨.p, w10, 234⟩, ⟨.p, w25, 235⟩, ⟨.id, w84, 236⟩, ⟨.p, w121, 236⟩,
   ⟨.id, w109, 236⟩, ⟨.p, w121, 237⟩, ⟨.id, w186, 237⟩, ⟨.p, w42, 237⟩, ⟨.id, w98, 237⟩, ⟨.p, w19, 237⟩,
   ⟨.id, w99, 237⟩, ⟨.p, w44, 237⟩, ⟨.id, w150, 237⟩, ⟨.p, w121, 237⟩, ⟨.id, w122, 237⟩, ⟨.p, w121, 237⟩,
   ⟨.id, w123, 237⟩, ⟨.p, w42, 237⟩, ⟨.p, w47, 237⟩, ⟨.p, w21, 237⟩, ⟨.id, w101, 237⟩, ⟨.p, w44, 237⟩,
   ⟨.id, w162, 237⟩, ⟨.p, w25, 237⟩, ⟨.p, w47, 237⟩, ⟨.p, w10, 237⟩, ⟨.id, w84, 238⟩, ⟨.p, w121, 238⟩,
   ⟨.id, w116, 238⟩, ⟨.p, w121, 238⟩, ⟨.id, w187, 238⟩, ⟨.p, w42, 238⟩, ⟨.id, w150, 238⟩, ⟨.p, w121, 238⟩,
   ⟨.id, w122, 238⟩, ⟨.p, w121, 238⟩, ⟨.id, w154, 238⟩, ⟨.p, w42, 238⟩, ⟨.p, w47, 238⟩, ⟨.p, w47, 238⟩,
   ⟨.p, w10, 238⟩, ⟨.id, w84, 239⟩, ⟨.p, w121, 239⟩, ⟨.id, w117, 239⟩, ⟨.p, w121, 239⟩, ⟨.id, w187, 239⟩,
   ⟨.p, w42, 239⟩, ⟨.id, w162, 239⟩, ⟨.p, w47, 239⟩, ⟨.p, w10, 239⟩, ⟨.id, w145, 241⟩, ⟨.p, w42, 241⟩,
   ⟨.p, w42, 241⟩, ⟨.p, w47, 241⟩, ⟨.p, w47, 241⟩, ⟨.p, w25, 242⟩, ⟨.id, w156, 242⟩, ⟨.p, w19, 242⟩, ⟨.id, w38, 243⟩,
   ⟨.p, w42, 243⟩, ⟨.id, w150, 243⟩, ⟨.p, w121, 243⟩, ⟨.id, w43, 243⟩, ⟨.p, w42, 243⟩, ⟨.p, w47, 243⟩,
   ⟨.p, w21, 243⟩, ⟨.str, w188, 243⟩, ⟨.p, w47, 243⟩, ⟨.p, w25, 244⟩, ⟨.p, w25, 245⟩, ⟨.id, w37, 248⟩,
   ⟨.id, w189, 248⟩, ⟨.p, w42, 248⟩, ⟨.p, w83, 248⟩, ⟨.id, w84, 248⟩, ⟨.p, w47, 248⟩, ⟨.p, w48, 248⟩,
   ⟨.id, w74, 248⟩, ⟨.p, w19, 248⟩, ⟨.id, w85, 249⟩, ⟨.id, w84, 249⟩, ⟨.p, w121, 249⟩, ⟨.id, w106, 249⟩,
   ⟨.p, w19, 249⟩, ⟨.id, w96, 250⟩, ⟨.p, w42, 250⟩, ⟨.id, w127, 250⟩, ⟨.p, w47, 250⟩, ⟨.p, w86, 250⟩,
   ⟨.id, w127, 250⟩, ⟨.p, w21, 250⟩, ⟨.id, w97, 251⟩, ⟨.p, w86, 251⟩, ⟨.id, w85, 251⟩, ⟨.id, w84, 251⟩,
   ⟨.p, w121, 251⟩, ⟨.id, w113, 251⟩, ⟨.p, w19, 251⟩, ⟨.id, w127, 252⟩, ⟨.id, w152, 252⟩, ⟨.id, w127, 252⟩,
   ⟨.p, w39, 252⟩, ⟨.int, w87, 252⟩, ⟨.p, w190, 252⟩, ⟨.p, w1, 252⟩, ⟨.id, w84, 252⟩, ⟨.p, w121, 252⟩,
   ⟨.id, w107, 252⟩, ⟨.p, w86, 252⟩, ⟨.id, w74, 252⟩, ⟨.p, w13, 252⟩, ⟨.id, w75, 252⟩, ⟨.p, w21, 252⟩,
   ⟨.id, w127, 253⟩, ⟨.id, w152, 253⟩, ⟨.id, w127, 253⟩, ⟨.p, w39, 253⟩, ⟨.int, w88, 253⟩, ⟨.p, w190, 253⟩,
   ⟨.p, w1, 253⟩, ⟨.id, w84, 253⟩, ⟨.p, w121, 253⟩, ⟨.id, w107, 253⟩, ⟨.p, w86, 253⟩, ⟨.id, w74, 253⟩,
   ⟨.p, w13, 253⟩, ⟨.id, w76, 253⟩, ⟨.p, w21, 253⟩, ⟨.id, w127, 254⟩, ⟨.id, w152, 254⟩, ⟨.id, w127, 254⟩,
   ⟨.p, w39, 254⟩, ⟨.int, w89, 254⟩, ⟨.p, w190, 254⟩, ⟨.p, w1, 254⟩, ⟨.id, w84, 254⟩, ⟨.p, w121, 254⟩,
   ⟨.id, w107, 254⟩, ⟨.p, w86, 254⟩, ⟨.id, w74, 254⟩, ⟨.p, w13, 254⟩, ⟨.id, w77, 254⟩, ⟨.p, w21, 254⟩,
   ⟨.id, w127, 255⟩, ⟨.id, w152, 255⟩, ⟨.id, w127, 255⟩, ⟨.p, w39, 255⟩, ⟨.int, w90, 255⟩, ⟨.p, w190, 255⟩,
   ⟨.p, w1, 255⟩, ⟨.id, w84, 255⟩, ⟨.p, w121, 255⟩, ⟨.id, w107, 255⟩, ⟨.p, w86, 255⟩, ⟨.id, w74, 255⟩,
   ⟨.p, w13, 255⟩, ⟨.id, w78, 255⟩, ⟨.p, w21, 255⟩, ⟨.id, w127, 256⟩, ⟨.p, w86, 256⟩, ⟨.id, w74, 256⟩,
   ⟨.p, w13, 256⟩, ⟨.id, w80, 256⟩, ⟨.p, w42, 256⟩, ⟨.p, w42, 256⟩, ⟨.id, w127, 256⟩, ⟨.id, w23, 256⟩,
   ⟨.id, w81, 256⟩, ⟨.p, w191, 256⟩, ⟨.int, w90, 256⟩, ⟨.p, w47, 256⟩, ⟨.p, w192, 256⟩, ⟨.int, w90, 256⟩,
   ⟨.p, w47, 256⟩, ⟨.p, w21, 256⟩, ⟨.p, w25, 257⟩, ⟨.p, w21, 257⟩, ⟨.p, w25, 258⟩, ⟨.p, w25, 259⟩, ⟨.id, w37, 262⟩,
   ⟨.id, w193, 262⟩, ⟨.p, w42, 262⟩, ⟨.p, w83, 262⟩, ⟨.id, w84, 262⟩, ⟨.p, w47, 262⟩, ⟨.p, w48, 262⟩,
   ⟨.id, w93, 262⟩, ⟨.p, w19, 262⟩, ⟨.id, w85, 263⟩, ⟨.id, w84, 263⟩, ⟨.p, w121, 263⟩, ⟨.id, w108, 263⟩,
   ⟨.p, w19, 263⟩, ⟨.id, w96, 264⟩, ⟨.p, w42, 264⟩, ⟨.id, w127, 264⟩, ⟨.p, w47, 264⟩, ⟨.p, w86, 264⟩,
   ⟨.id, w127, 264⟩, ⟨.p, w21, 264⟩, ⟨.id, w97, 265⟩, ⟨.p, w86, 265⟩, ⟨.id, w85, 265⟩, ⟨.id, w84, 265⟩,
   ⟨.p, w121, 265⟩, ⟨.id, w113, 265⟩, ⟨.p, w19, 265⟩, ⟨.id, w127, 266⟩, ⟨.id, w152, 266⟩, ⟨.id, w127, 266⟩,
   ⟨.p, w39, 266⟩, ⟨.int, w87, 266⟩, ⟨.p, w86, 266⟩, ⟨.id, w93, 266⟩, ⟨.p, w13, 266⟩, ⟨.id, w75, 266⟩,
   ⟨.p, w21, 266⟩, ⟨.id, w127, 267⟩, ⟨.id, w152, 267⟩, ⟨.id, w127, 267⟩, ⟨.p, w39, 267⟩, ⟨.int, w88, 267⟩,
   ⟨.p, w86, 267⟩, ⟨.id, w93, 267⟩, ⟨.p, w13, 267⟩, ⟨.id, w76, 267⟩, ⟨.p, w21, 267⟩, ⟨.id, w127, 268⟩,
   ⟨.id, w152, 268⟩, ⟨.id, w127, 268⟩, ⟨.p, w39, 268⟩, ⟨.int, w89, 268⟩, ⟨.p, w86, 268⟩, ⟨.id, w93, 268⟩,
   ⟨.p, w13, 268⟩, ⟨.id, w77, 268⟩, ⟨.p, w21, 268⟩, ⟨.id, w127, 269⟩, ⟨.id, w152, 269⟩, ⟨.id, w127, 269⟩,
   ⟨.p, w39, 269⟩, ⟨.int, w90, 269⟩, ⟨.p, w86, 269⟩, ⟨.id, w93, 269⟩, ⟨.p, w13, 269⟩, ⟨.id, w78, 269⟩,
   ⟨.p, w21, 269⟩, ⟨.id, w127, 270⟩, ⟨.id, w152, 270⟩, ⟨.id, w127, 270⟩, ⟨.p, w39, 270⟩, ⟨.int, w91, 270⟩,
   ⟨.p, w86, 270⟩, ⟨.id, w93, 270⟩, ⟨.p, w13, 270⟩, ⟨.id, w79, 270⟩, ⟨.p, w21, 270⟩, ⟨.id, w141, 271⟩,
   ⟨.p, w86, 271⟩, ⟨.id, w93, 271⟩, ⟨.p, w13, 271⟩, ⟨.id, w80, 271⟩, ⟨.p, w21, 271⟩, ⟨.p, w25, 272⟩, ⟨.p, w21, 272⟩,
   ⟨.p, w25, 273⟩, ⟨.p, w25, 274⟩, ⟨.id, w37, 277⟩, ⟨.id, w194, 277⟩, ⟨.p, w42, 277⟩, ⟨.p, w83, 277⟩,
   ⟨.id, w84, 277⟩, ⟨.p, w47, 277⟩, ⟨.p, w48, 277⟩, ⟨.id, w36, 277⟩, ⟨.p, w39, 277⟩, ⟨.p, w42, 277⟩, ⟨.p, w47, 277⟩,
   ⟨.p, w41, 277⟩, ⟨.p, w19, 277⟩, ⟨.id, w157, 279⟩, ⟨.id, w195, 279⟩, ⟨.p, w4, 279⟩, ⟨.id, w85, 279⟩,
   ⟨.p, w83, 279⟩, ⟨.id, w84, 279⟩, ⟨.p, w121, 279⟩, ⟨.id, w114, 279⟩, ⟨.p, w19, 279⟩, ⟨.id, w96, 280⟩,
   ⟨.p, w42, 280⟩, ⟨.id, w127, 280⟩, ⟨.p, w47, 280⟩, ⟨.p, w86, 280⟩, ⟨.p, w16, 280⟩, ⟨.id, w127, 280⟩,
   ⟨.p, w21, 280⟩, ⟨.id, w97, 281⟩, ⟨.p, w86, 281⟩, ⟨.id, w22, 281⟩, ⟨.p, w13, 281⟩, ⟨.id, w128, 281⟩,
   ⟨.p, w42, 281⟩, ⟨.p, w47, 281⟩, ⟨.p, w21, 281⟩, ⟨.p, w25, 282⟩, ⟨.p, w10, 282⟩, ⟨.id, w152, 285⟩, ⟨.id, w84, 285⟩,
   ⟨.p, w121, 285⟩, ⟨.id, w189, 285⟩, ⟨.p, w42, 285⟩, ⟨.p, w47, 285⟩, ⟨.p, w121, 285⟩, ⟨.id, w82, 285⟩,
   ⟨.p, w42, 285⟩, ⟨.p, w47, 285⟩, ⟨.p, w196, 285⟩, ⟨.id, w84, 285⟩, ⟨.p, w121, 285⟩, ⟨.id, w113, 285⟩,
   ⟨.id, w23, 285⟩, ⟨.id, w81, 285⟩, ⟨.p, w19, 285⟩, ⟨.id, w38, 286⟩, ⟨.p, w42, 286⟩, ⟨.id, w195, 287⟩,
   ⟨.p, w21, 287⟩, ⟨.str, w197, 288⟩, ⟨.p, w21, 288⟩, ⟨.p, w47, 289⟩, ⟨.p, w144, 289⟩, ⟨.p, w10, 289⟩,
   ⟨.p, w25, 290⟩, ⟨.id, w152, 293⟩, ⟨.id, w157, 293⟩, ⟨.id, w96, 293⟩, ⟨.p, w42, 293⟩, ⟨.id, w82, 293⟩,
   ⟨.p, w47, 293⟩, ⟨.p, w4, 293⟩, ⟨.id, w84, 293⟩, ⟨.p, w121, 293⟩, ⟨.id, w193, 293⟩, ⟨.p, w42, 293⟩, ⟨.p, w47, 293⟩,
   ⟨.p, w121, 293⟩, ⟨.id, w82, 293⟩, ⟨.p, w42, 293⟩, ⟨.p, w47, 293⟩, ⟨.p, w19, 293⟩, ⟨.id, w152, 294⟩,
   ⟨.id, w82, 294⟩, ⟨.p, w196, 294⟩, ⟨.id, w84, 294⟩, ⟨.p, w121, 294⟩, ⟨.id, w113, 294⟩, ⟨.id, w23, 294⟩,
   ⟨.id, w81, 294⟩, ⟨.p, w19, 294⟩, ⟨.id, w38, 295⟩, ⟨.p, w42, 295⟩, ⟨.id, w195, 296⟩, ⟨.p, w21, 296⟩,
   ⟨.str, w198, 297⟩, ⟨.p, w21, 297⟩, ⟨.p, w47, 298⟩, ⟨.p, w144, 298⟩, ⟨.p, w10, 298⟩, ⟨.p, w25, 299⟩,
   ⟨.p, w25, 300⟩, ⟨.id, w145, 302⟩, ⟨.p, w42, 302⟩, ⟨.p, w42, 302⟩, ⟨.p, w47, 302⟩, ⟨.p, w47, 302⟩, ⟨.p, w25, 303⟩,
   ⟨.id, w37, 306⟩, ⟨.id, w199, 306⟩, ⟨.p, w42, 306⟩, ⟨.p, w83, 306⟩, ⟨.id, w84, 306⟩, ⟨.p, w47, 306⟩,
   ⟨.p, w48, 306⟩, ⟨.id, w110, 306⟩, ⟨.p, w39, 306⟩, ⟨.id, w137, 306⟩, ⟨.p, w41, 306⟩, ⟨.p, w19, 306⟩,
   ⟨.id, w157, 307⟩, ⟨.id, w132, 307⟩, ⟨.id, w200, 307⟩, ⟨.p, w4, 307⟩, ⟨.id, w200, 307⟩, ⟨.p, w1, 307⟩,
   ⟨.p, w2, 307⟩, ⟨.int, w130, 307⟩, ⟨.p, w6, 307⟩, ⟨.p, w10, 307⟩, ⟨.id, w201, 308⟩, ⟨.id, w150, 308⟩,
   ⟨.id, w202, 308⟩, ⟨.p, w83, 308⟩, ⟨.id, w84, 308⟩, ⟨.p, w121, 308⟩, ⟨.id, w109, 308⟩, ⟨.p, w19, 308⟩,
   ⟨.id, w157, 309⟩, ⟨.p, w42, 309⟩, ⟨.id, w203, 309⟩, ⟨.p, w21, 309⟩, ⟨.id, w204, 309⟩, ⟨.p, w47, 309⟩,
   ⟨.p, w4, 309⟩, ⟨.p, w42, 309⟩, ⟨.id, w150, 309⟩, ⟨.p, w121, 309⟩, ⟨.id, w101, 309⟩, ⟨.id, w23, 309⟩,
   ⟨.id, w81, 309⟩, ⟨.p, w192, 309⟩, ⟨.int, w90, 309⟩, ⟨.p, w21, 309⟩, ⟨.id, w150, 309⟩, ⟨.p, w121, 309⟩,
   ⟨.id, w101, 309⟩, ⟨.p, w205, 309⟩, ⟨.int, w90, 309⟩, ⟨.p, w47, 309⟩, ⟨.p, w10, 309⟩, ⟨.id, w206, 310⟩,
   ⟨.id, w203, 310⟩, ⟨.p, w180, 310⟩, ⟨.id, w200, 310⟩, ⟨.p, w121, 310⟩, ⟨.id, w207, 310⟩, ⟨.p, w42, 310⟩,
   ⟨.p, w47, 310⟩, ⟨.p, w19, 310⟩, ⟨.id, w200, 311⟩, ⟨.p, w121, 311⟩, ⟨.id, w186, 311⟩, ⟨.p, w42, 311⟩,
   ⟨.int, w130, 311⟩, ⟨.p, w47, 311⟩, ⟨.p, w10, 311⟩, ⟨.p, w25, 312⟩, ⟨.id, w200, 313⟩, ⟨.p, w2, 313⟩,
   ⟨.id, w203, 313⟩, ⟨.p, w6, 313⟩, ⟨.p, w208, 313⟩, ⟨.int, w209, 313⟩, ⟨.p, w210, 313⟩, ⟨.id, w204, 313⟩,
   ⟨.p, w10, 313⟩, ⟨.p, w25, 314⟩, ⟨.id, w200, 315⟩, ⟨.p, w25, 316⟩, ⟨.p, w25, 317⟩, ⟨.id, w37, 320⟩,
   ⟨.id, w211, 320⟩, ⟨.p, w42, 320⟩, ⟨.id, w212, 320⟩, ⟨.p, w44, 320⟩, ⟨.id, w105, 320⟩, ⟨.p, w21, 320⟩,
   ⟨.id, w213, 320⟩, ⟨.p, w44, 320⟩, ⟨.id, w110, 320⟩, ⟨.p, w39, 320⟩, ⟨.p, w42, 320⟩, ⟨.id, w22, 320⟩,
   ⟨.p, w21, 320⟩, ⟨.p, w83, 320⟩, ⟨.life, w214, 320⟩, ⟨.id, w134, 320⟩, ⟨.p, w47, 320⟩, ⟨.p, w41, 320⟩,
   ⟨.p, w47, 320⟩, ⟨.p, w48, 320⟩, ⟨.id, w24, 320⟩, ⟨.p, w19, 320⟩, ⟨.id, w157, 321⟩, ⟨.id, w99, 321⟩, ⟨.p, w4, 321⟩,
   ⟨.p, w83, 321⟩, ⟨.id, w212, 321⟩, ⟨.p, w121, 321⟩, ⟨.id, w99, 321⟩, ⟨.p, w10, 321⟩, ⟨.id, w157, 323⟩,
   ⟨.id, w55, 323⟩, ⟨.p, w4, 323⟩, ⟨.id, w85, 323⟩, ⟨.p, w83, 323⟩, ⟨.id, w212, 323⟩, ⟨.p, w121, 323⟩,
   ⟨.id, w68, 323⟩, ⟨.p, w19, 323⟩, ⟨.id, w96, 324⟩, ⟨.p, w42, 324⟩, ⟨.id, w68, 324⟩, ⟨.p, w47, 324⟩, ⟨.p, w86, 324⟩,
   ⟨.id, w26, 324⟩, ⟨.p, w1, 324⟩, ⟨.p, w42, 324⟩, ⟨.p, w13, 324⟩, ⟨.p, w0, 324⟩, ⟨.id, w68, 324⟩, ⟨.p, w47, 324⟩,
   ⟨.p, w21, 324⟩, ⟨.id, w97, 325⟩, ⟨.p, w86, 325⟩, ⟨.p, w19, 325⟩, ⟨.p, w0, 326⟩, ⟨.p, w2, 326⟩, ⟨.id, w215, 326⟩,
   ⟨.p, w42, 326⟩, ⟨.id, w216, 326⟩, ⟨.p, w4, 326⟩, ⟨.str, w217, 326⟩, ⟨.p, w47, 326⟩, ⟨.p, w6, 326⟩, ⟨.p, w19, 327⟩,
   ⟨.id, w11, 328⟩, ⟨.id, w218, 328⟩, ⟨.p, w13, 328⟩, ⟨.id, w219, 328⟩, ⟨.p, w10, 328⟩, ⟨.id, w157, 330⟩,
   ⟨.id, w68, 330⟩, ⟨.p, w4, 330⟩, ⟨.id, w218, 330⟩, ⟨.p, w13, 330⟩, ⟨.id, w68, 330⟩, ⟨.p, w42, 330⟩,
   ⟨.str, w55, 330⟩, ⟨.p, w47, 330⟩, ⟨.p, w10, 330⟩, ⟨.id, w85, 331⟩, ⟨.id, w68, 331⟩, ⟨.p, w19, 331⟩,
   ⟨.id, w145, 332⟩, ⟨.p, w42, 332⟩, ⟨.id, w219, 332⟩, ⟨.p, w13, 332⟩, ⟨.id, w220, 332⟩, ⟨.p, w42, 332⟩,
   ⟨.id, w99, 332⟩, ⟨.p, w47, 332⟩, ⟨.p, w47, 332⟩, ⟨.p, w86, 332⟩, ⟨.p, w19, 332⟩, ⟨.id, w157, 333⟩,
   ⟨.id, w122, 333⟩, ⟨.p, w4, 333⟩, ⟨.id, w100, 333⟩, ⟨.p, w13, 333⟩, ⟨.id, w50, 333⟩, ⟨.p, w42, 333⟩,
   ⟨.p, w83, 333⟩, ⟨.id, w99, 333⟩, ⟨.p, w21, 333⟩, ⟨.id, w22, 333⟩, ⟨.p, w13, 333⟩, ⟨.id, w128, 333⟩,
   ⟨.p, w42, 333⟩, ⟨.p, w47, 333⟩, ⟨.p, w47, 333⟩, ⟨.p, w10, 333⟩, ⟨.id, w26, 334⟩, ⟨.p, w1, 334⟩, ⟨.p, w42, 334⟩,
   ⟨.p, w13, 334⟩, ⟨.p, w0, 334⟩, ⟨.id, w122, 334⟩, ⟨.p, w47, 334⟩, ⟨.p, w25, 335⟩, ⟨.id, w141, 336⟩, ⟨.p, w86, 336⟩,
   ⟨.id, w26, 336⟩, ⟨.p, w1, 336⟩, ⟨.p, w42, 336⟩, ⟨.p, w13, 336⟩, ⟨.id, w55, 336⟩, ⟨.p, w47, 336⟩, ⟨.p, w21, 336⟩,
   ⟨.p, w25, 337⟩, ⟨.p, w25, 338⟩, ⟨.p, w0, 340⟩, ⟨.p, w2, 340⟩, ⟨.id, w215, 340⟩, ⟨.p, w42, 340⟩, ⟨.id, w221, 340⟩,
   ⟨.p, w42, 340⟩, ⟨.id, w216, 340⟩, ⟨.p, w4, 340⟩, ⟨.str, w217, 340⟩, ⟨.p, w47, 340⟩, ⟨.p, w47, 340⟩, ⟨.p, w6, 340⟩,
   ⟨.p, w19, 341⟩, ⟨.id, w26, 342⟩, ⟨.p, w1, 342⟩, ⟨.p, w42, 342⟩, ⟨.p, w13, 342⟩, ⟨.id, w55, 342⟩, ⟨.p, w47, 342⟩,
   ⟨.p, w25, 343⟩, ⟨.p, w25, 344⟩, ⟨.p, w25, 345⟩, ⟨.p, w10, 345⟩, ⟨.id, w157, 346⟩, ⟨.id, w222, 346⟩, ⟨.p, w4, 346⟩,
   ⟨.id, w26, 346⟩, ⟨.p, w1, 346⟩, ⟨.p, w42, 346⟩, ⟨.p, w0, 346⟩, ⟨.id, w55, 346⟩, ⟨.p, w13, 346⟩, ⟨.id, w223, 346⟩,
   ⟨.p, w39, 346⟩, ⟨.p, w0, 346⟩, ⟨.id, w99, 346⟩, ⟨.p, w41, 346⟩, ⟨.p, w47, 346⟩, ⟨.p, w10, 346⟩, ⟨.id, w157, 347⟩,
   ⟨.id, w224, 347⟩, ⟨.p, w4, 347⟩, ⟨.id, w26, 347⟩, ⟨.p, w1, 347⟩, ⟨.p, w42, 347⟩, ⟨.p, w0, 347⟩, ⟨.id, w55, 347⟩,
   ⟨.p, w13, 347⟩, ⟨.id, w225, 347⟩, ⟨.p, w13, 347⟩, ⟨.id, w226, 347⟩, ⟨.p, w47, 347⟩, ⟨.p, w10, 347⟩,
   ⟨.id, w157, 348⟩, ⟨.id, w227, 348⟩, ⟨.p, w4, 348⟩, ⟨.id, w26, 348⟩, ⟨.p, w1, 348⟩, ⟨.p, w42, 348⟩, ⟨.p, w0, 348⟩,
   ⟨.id, w55, 348⟩, ⟨.p, w13, 348⟩, ⟨.id, w225, 348⟩, ⟨.p, w47, 348⟩, ⟨.p, w10, 348⟩, ⟨.p, w0, 349⟩, ⟨.p, w2, 349⟩,
   ⟨.id, w215, 349⟩, ⟨.p, w42, 349⟩, ⟨.id, w216, 349⟩, ⟨.p, w4, 349⟩, ⟨.str, w228, 349⟩, ⟨.p, w47, 349⟩,
   ⟨.p, w6, 349⟩, ⟨.id, w157, 350⟩, ⟨.id, w228, 350⟩, ⟨.p, w4, 350⟩, ⟨.id, w26, 350⟩, ⟨.p, w1, 350⟩, ⟨.p, w42, 350⟩,
   ⟨.p, w0, 350⟩, ⟨.id, w55, 350⟩, ⟨.p, w13, 350⟩, ⟨.id, w225, 350⟩, ⟨.p, w13, 350⟩, ⟨.id, w228, 350⟩,
   ⟨.p, w47, 350⟩, ⟨.p, w10, 350⟩, ⟨.id, w157, 352⟩, ⟨.id, w62, 352⟩, ⟨.p, w4, 352⟩, ⟨.id, w85, 352⟩,
   ⟨.id, w212, 352⟩, ⟨.p, w121, 352⟩, ⟨.id, w189, 352⟩, ⟨.p, w42, 352⟩, ⟨.p, w47, 352⟩, ⟨.p, w19, 352⟩,
   ⟨.id, w74, 353⟩, ⟨.p, w13, 353⟩, ⟨.id, w75, 353⟩, ⟨.p, w86, 353⟩, ⟨.id, w26, 353⟩, ⟨.p, w1, 353⟩, ⟨.p, w19, 353⟩,
   ⟨.id, w135, 353⟩, ⟨.p, w25, 353⟩, ⟨.p, w21, 353⟩, ⟨.id, w74, 354⟩, ⟨.p, w13, 354⟩, ⟨.id, w76, 354⟩,
   ⟨.p, w86, 354⟩, ⟨.id, w26, 354⟩, ⟨.p, w1, 354⟩, ⟨.p, w19, 354⟩, ⟨.id, w136, 354⟩, ⟨.p, w25, 354⟩, ⟨.p, w21, 354⟩,
   ⟨.id, w74, 355⟩, ⟨.p, w13, 355⟩, ⟨.id, w77, 355⟩, ⟨.p, w86, 355⟩, ⟨.id, w26, 355⟩, ⟨.p, w1, 355⟩, ⟨.p, w19, 355⟩,
   ⟨.id, w102, 355⟩, ⟨.p, w25, 355⟩, ⟨.p, w21, 355⟩, ⟨.id, w74, 356⟩, ⟨.p, w13, 356⟩, ⟨.id, w78, 356⟩,
   ⟨.p, w86, 356⟩, ⟨.id, w26, 356⟩, ⟨.p, w1, 356⟩, ⟨.p, w19, 356⟩, ⟨.id, w137, 356⟩, ⟨.p, w25, 356⟩, ⟨.p, w21, 356⟩,
   ⟨.id, w74, 357⟩, ⟨.p, w13, 357⟩, ⟨.id, w79, 357⟩, ⟨.p, w86, 357⟩, ⟨.id, w26, 357⟩, ⟨.p, w1, 357⟩, ⟨.p, w19, 357⟩,
   ⟨.id, w138, 357⟩, ⟨.p, w25, 357⟩, ⟨.p, w21, 357⟩, ⟨.id, w74, 358⟩, ⟨.p, w13, 358⟩, ⟨.id, w80, 358⟩,
   ⟨.p, w42, 358⟩, ⟨.id, w92, 358⟩, ⟨.p, w47, 358⟩, ⟨.p, w86, 358⟩, ⟨.id, w26, 358⟩, ⟨.p, w1, 358⟩, ⟨.p, w19, 358⟩,
   ⟨.p, w0, 358⟩, ⟨.id, w227, 358⟩, ⟨.p, w13, 358⟩, ⟨.id, w229, 358⟩, ⟨.p, w39, 358⟩, ⟨.p, w19, 358⟩, ⟨.p, w0, 358⟩,
   ⟨.id, w92, 358⟩, ⟨.p, w25, 358⟩, ⟨.p, w41, 358⟩, ⟨.p, w25, 358⟩, ⟨.p, w21, 358⟩, ⟨.p, w25, 359⟩, ⟨.p, w10, 359⟩,
   ⟨.id, w157, 360⟩, ⟨.id, w199, 360⟩, ⟨.p, w4, 360⟩, ⟨.id, w212, 360⟩, ⟨.p, w121, 360⟩, ⟨.id, w199, 360⟩,
   ⟨.p, w42, 360⟩, ⟨.p, w47, 360⟩, ⟨.p, w10, 360⟩, ⟨.id, w157, 361⟩, ⟨.id, w230, 361⟩, ⟨.p, w4, 361⟩,
   ⟨.id, w85, 361⟩, ⟨.id, w212, 361⟩, ⟨.p, w121, 361⟩, ⟨.id, w189, 361⟩, ⟨.p, w42, 361⟩, ⟨.p, w47, 361⟩,
   ⟨.p, w19, 361⟩, ⟨.id, w74, 362⟩, ⟨.p, w13, 362⟩, ⟨.id, w75, 362⟩, ⟨.p, w126, 362⟩, ⟨.id, w74, 362⟩,
   ⟨.p, w13, 362⟩, ⟨.id, w76, 362⟩, ⟨.p, w126, 362⟩, ⟨.id, w74, 362⟩, ⟨.p, w13, 362⟩, ⟨.id, w77, 362⟩,
   ⟨.p, w126, 362⟩, ⟨.id, w74, 362⟩, ⟨.p, w13, 362⟩, ⟨.id, w78, 362⟩, ⟨.p, w86, 362⟩, ⟨.p, w19, 362⟩,
   ⟨.id, w157, 363⟩, ⟨.id, w166, 363⟩, ⟨.p, w4, 363⟩, ⟨.id, w20, 363⟩, ⟨.p, w13, 363⟩, ⟨.id, w231, 363⟩,
   ⟨.p, w42, 363⟩, ⟨.id, w199, 363⟩, ⟨.p, w2, 363⟩, ⟨.int, w130, 363⟩, ⟨.p, w6, 363⟩, ⟨.p, w47, 363⟩, ⟨.p, w10, 363⟩,
   ⟨.id, w26, 364⟩, ⟨.p, w1, 364⟩, ⟨.p, w19, 364⟩, ⟨.p, w0, 364⟩, ⟨.id, w166, 364⟩, ⟨.p, w25, 364⟩, ⟨.p, w25, 365⟩,
   ⟨.id, w74, 366⟩, ⟨.p, w13, 366⟩, ⟨.id, w79, 366⟩, ⟨.p, w86, 366⟩, ⟨.p, w19, 366⟩, ⟨.id, w157, 367⟩,
   ⟨.id, w166, 367⟩, ⟨.p, w4, 367⟩, ⟨.id, w20, 367⟩, ⟨.p, w13, 367⟩, ⟨.id, w232, 367⟩, ⟨.p, w42, 367⟩,
   ⟨.id, w199, 368⟩, ⟨.p, w2, 368⟩, ⟨.int, w130, 368⟩, ⟨.p, w6, 368⟩, ⟨.id, w23, 368⟩, ⟨.id, w138, 368⟩,
   ⟨.p, w126, 368⟩, ⟨.id, w199, 368⟩, ⟨.p, w121, 368⟩, ⟨.id, w233, 368⟩, ⟨.p, w42, 368⟩, ⟨.int, w185, 368⟩,
   ⟨.p, w47, 368⟩, ⟨.p, w121, 368⟩, ⟨.id, w234, 368⟩, ⟨.p, w42, 368⟩, ⟨.int, w130, 368⟩, ⟨.p, w21, 368⟩,
   ⟨.p, w126, 368⟩, ⟨.id, w127, 368⟩, ⟨.p, w126, 368⟩, ⟨.p, w42, 368⟩, ⟨.p, w16, 368⟩, ⟨.id, w127, 368⟩,
   ⟨.id, w23, 368⟩, ⟨.id, w138, 368⟩, ⟨.p, w47, 368⟩, ⟨.p, w210, 368⟩, ⟨.int, w90, 368⟩, ⟨.p, w47, 368⟩,
   ⟨.p, w21, 368⟩, ⟨.p, w47, 369⟩, ⟨.p, w10, 369⟩, ⟨.id, w26, 370⟩, ⟨.p, w1, 370⟩, ⟨.p, w19, 370⟩, ⟨.p, w0, 370⟩,
   ⟨.id, w166, 370⟩, ⟨.p, w25, 370⟩, ⟨.p, w25, 371⟩, ⟨.id, w74, 372⟩, ⟨.p, w13, 372⟩, ⟨.id, w80, 372⟩,
   ⟨.p, w42, 372⟩, ⟨.id, w92, 372⟩, ⟨.p, w47, 372⟩, ⟨.p, w86, 372⟩, ⟨.p, w19, 372⟩, ⟨.id, w157, 373⟩,
   ⟨.id, w132, 373⟩, ⟨.id, w50, 373⟩, ⟨.p, w4, 373⟩, ⟨.id, w110, 373⟩, ⟨.p, w13, 373⟩, ⟨.id, w50, 373⟩,
   ⟨.p, w42, 373⟩, ⟨.p, w47, 373⟩, ⟨.p, w10, 373⟩, ⟨.id, w201, 374⟩, ⟨.id, w168, 374⟩, ⟨.id, w202, 374⟩,
   ⟨.int, w130, 374⟩, ⟨.p, w169, 374⟩, ⟨.id, w92, 374⟩, ⟨.p, w19, 374⟩, ⟨.id, w50, 375⟩, ⟨.p, w121, 375⟩,
   ⟨.id, w186, 375⟩, ⟨.p, w42, 375⟩, ⟨.id, w20, 375⟩, ⟨.p, w13, 375⟩, ⟨.id, w231, 375⟩, ⟨.p, w42, 375⟩,
   ⟨.p, w16, 375⟩, ⟨.id, w199, 375⟩, ⟨.p, w121, 375⟩, ⟨.id, w233, 375⟩, ⟨.p, w42, 375⟩, ⟨.id, w168, 375⟩,
   ⟨.p, w47, 375⟩, ⟨.p, w121, 375⟩, ⟨.id, w235, 375⟩, ⟨.p, w42, 375⟩, ⟨.p, w83, 375⟩, ⟨.int, w130, 375⟩,
   ⟨.p, w47, 375⟩, ⟨.p, w47, 375⟩, ⟨.p, w47, 375⟩, ⟨.p, w10, 375⟩, ⟨.p, w25, 376⟩, ⟨.id, w26, 377⟩, ⟨.p, w1, 377⟩,
   ⟨.p, w19, 377⟩, ⟨.p, w0, 377⟩, ⟨.id, w227, 377⟩, ⟨.p, w13, 377⟩, ⟨.id, w229, 377⟩, ⟨.p, w13, 377⟩, ⟨.p, w39, 377⟩,
   ⟨.p, w19, 377⟩, ⟨.p, w0, 377⟩, ⟨.id, w92, 377⟩, ⟨.p, w25, 377⟩, ⟨.p, w41, 377⟩, ⟨.p, w42, 377⟩, ⟨.p, w2, 377⟩,
   ⟨.p, w0, 377⟩, ⟨.p, w42, 377⟩, ⟨.p, w0, 377⟩, ⟨.id, w50, 377⟩, ⟨.p, w21, 377⟩, ⟨.p, w47, 377⟩, ⟨.p, w16, 377⟩,
   ⟨.p, w6, 377⟩, ⟨.p, w47, 377⟩, ⟨.p, w25, 377⟩, ⟨.p, w25, 378⟩, ⟨.p, w25, 379⟩, ⟨.p, w10, 379⟩, ⟨.id, w157, 381⟩,
   ⟨.id, w236, 381⟩, ⟨.p, w4, 381⟩, ⟨.id, w152, 381⟩, ⟨.id, w212, 381⟩, ⟨.p, w121, 381⟩, ⟨.id, w59, 381⟩,
   ⟨.p, w19, 381⟩, ⟨.id, w26, 382⟩, ⟨.p, w1, 382⟩, ⟨.p, w19, 382⟩, ⟨.p, w25, 382⟩, ⟨.p, w25, 383⟩, ⟨.id, w156, 383⟩,
   ⟨.p, w19, 383⟩, ⟨.id, w26, 384⟩, ⟨.p, w1, 384⟩, ⟨.p, w19, 384⟩, ⟨.p, w0, 385⟩, ⟨.p, w2, 385⟩, ⟨.id, w237, 385⟩,
   ⟨.p, w6, 385⟩, ⟨.id, w46, 386⟩, ⟨.p, w39, 386⟩, ⟨.id, w238, 386⟩, ⟨.p, w44, 386⟩, ⟨.id, w239, 386⟩,
   ⟨.p, w39, 386⟩, ⟨.p, w0, 386⟩, ⟨.id, w222, 386⟩, ⟨.p, w65, 386⟩, ⟨.p, w0, 386⟩, ⟨.id, w224, 386⟩, ⟨.p, w13, 386⟩,
   ⟨.id, w236, 386⟩, ⟨.p, w13, 386⟩, ⟨.id, w240, 386⟩, ⟨.p, w39, 386⟩, ⟨.id, w238, 386⟩, ⟨.p, w41, 386⟩,
   ⟨.id, w201, 386⟩, ⟨.p, w0, 386⟩, ⟨.id, w99, 386⟩, ⟨.p, w19, 386⟩, ⟨.id, w241, 387⟩, ⟨.id, w242, 387⟩,
   ⟨.p, w4, 387⟩, ⟨.p, w0, 387⟩, ⟨.id, w222, 387⟩, ⟨.p, w10, 387⟩, ⟨.id, w37, 388⟩, ⟨.id, w243, 388⟩, ⟨.p, w42, 388⟩,
   ⟨.id, w84, 388⟩, ⟨.p, w21, 388⟩, ⟨.id, w244, 388⟩, ⟨.p, w44, 388⟩, ⟨.id, w238, 388⟩, ⟨.p, w47, 388⟩,
   ⟨.p, w48, 388⟩, ⟨.id, w245, 388⟩, ⟨.p, w13, 388⟩, ⟨.id, w242, 388⟩, ⟨.p, w19, 388⟩, ⟨.p, w0, 389⟩,
   ⟨.id, w55, 389⟩, ⟨.p, w13, 389⟩, ⟨.id, w223, 389⟩, ⟨.p, w13, 389⟩, ⟨.id, w246, 389⟩, ⟨.p, w42, 389⟩,
   ⟨.id, w84, 389⟩, ⟨.p, w47, 389⟩, ⟨.p, w247, 389⟩, ⟨.id, w244, 389⟩, ⟨.p, w121, 389⟩, ⟨.id, w248, 389⟩,
   ⟨.p, w42, 389⟩, ⟨.p, w47, 389⟩, ⟨.p, w25, 390⟩, ⟨.p, w25, 391⟩, ⟨.p, w0, 392⟩, ⟨.p, w2, 392⟩, ⟨.id, w237, 392⟩,
   ⟨.p, w6, 392⟩, ⟨.id, w46, 393⟩, ⟨.p, w39, 393⟩, ⟨.id, w238, 393⟩, ⟨.p, w44, 393⟩, ⟨.id, w239, 393⟩,
   ⟨.p, w39, 393⟩, ⟨.p, w0, 393⟩, ⟨.id, w222, 393⟩, ⟨.p, w65, 393⟩, ⟨.p, w0, 393⟩, ⟨.id, w224, 393⟩, ⟨.p, w13, 393⟩,
   ⟨.id, w236, 393⟩, ⟨.p, w13, 393⟩, ⟨.id, w249, 393⟩, ⟨.p, w39, 393⟩, ⟨.id, w238, 393⟩, ⟨.p, w41, 393⟩,
   ⟨.id, w201, 393⟩, ⟨.p, w0, 393⟩, ⟨.id, w99, 393⟩, ⟨.p, w19, 393⟩, ⟨.id, w241, 394⟩, ⟨.id, w242, 394⟩,
   ⟨.p, w4, 394⟩, ⟨.p, w0, 394⟩, ⟨.id, w222, 394⟩, ⟨.p, w10, 394⟩, ⟨.id, w37, 395⟩, ⟨.id, w250, 395⟩, ⟨.p, w42, 395⟩,
   ⟨.id, w84, 395⟩, ⟨.p, w21, 395⟩, ⟨.id, w244, 395⟩, ⟨.p, w44, 395⟩, ⟨.id, w238, 395⟩, ⟨.p, w47, 395⟩,
   ⟨.p, w48, 395⟩, ⟨.id, w245, 395⟩, ⟨.p, w13, 395⟩, ⟨.id, w242, 395⟩, ⟨.p, w19, 395⟩, ⟨.p, w0, 396⟩,
   ⟨.id, w55, 396⟩, ⟨.p, w13, 396⟩, ⟨.id, w223, 396⟩, ⟨.p, w13, 396⟩, ⟨.id, w246, 396⟩, ⟨.p, w42, 396⟩,
   ⟨.id, w84, 396⟩, ⟨.p, w47, 396⟩, ⟨.p, w83, 396⟩, ⟨.id, w244, 396⟩, ⟨.p, w121, 396⟩, ⟨.id, w248, 396⟩,
   ⟨.p, w42, 396⟩, ⟨.p, w47, 396⟩, ⟨.p, w25, 397⟩, ⟨.p, w25, 398⟩, ⟨.p, w0, 399⟩, ⟨.p, w2, 399⟩, ⟨.id, w237, 399⟩,
   ⟨.p, w6, 399⟩, ⟨.id, w46, 400⟩, ⟨.p, w39, 400⟩, ⟨.id, w238, 400⟩, ⟨.p, w44, 400⟩, ⟨.id, w239, 400⟩,
   ⟨.p, w39, 400⟩, ⟨.p, w0, 400⟩, ⟨.id, w222, 400⟩, ⟨.p, w65, 400⟩, ⟨.p, w0, 400⟩, ⟨.id, w224, 400⟩, ⟨.p, w13, 400⟩,
   ⟨.id, w236, 400⟩, ⟨.p, w13, 400⟩, ⟨.id, w251, 400⟩, ⟨.p, w39, 400⟩, ⟨.id, w238, 400⟩, ⟨.p, w41, 400⟩,
   ⟨.id, w201, 400⟩, ⟨.p, w0, 400⟩, ⟨.id, w99, 400⟩, ⟨.p, w19, 400⟩, ⟨.id, w241, 401⟩, ⟨.id, w242, 401⟩,
   ⟨.p, w4, 401⟩, ⟨.p, w0, 401⟩, ⟨.id, w222, 401⟩, ⟨.p, w10, 401⟩, ⟨.id, w37, 402⟩, ⟨.id, w252, 402⟩, ⟨.p, w42, 402⟩,
   ⟨.id, w84, 402⟩, ⟨.p, w21, 402⟩, ⟨.id, w244, 402⟩, ⟨.p, w44, 402⟩, ⟨.id, w238, 402⟩, ⟨.p, w47, 402⟩,
   ⟨.p, w48, 402⟩, ⟨.id, w245, 402⟩, ⟨.p, w13, 402⟩, ⟨.id, w242, 402⟩, ⟨.p, w19, 402⟩, ⟨.p, w0, 403⟩,
   ⟨.id, w55, 403⟩, ⟨.p, w13, 403⟩, ⟨.id, w223, 403⟩, ⟨.p, w13, 403⟩, ⟨.id, w246, 403⟩, ⟨.p, w42, 403⟩,
   ⟨.id, w84, 403⟩, ⟨.p, w47, 403⟩, ⟨.p, w126, 403⟩, ⟨.id, w244, 403⟩, ⟨.p, w121, 403⟩, ⟨.id, w248, 403⟩,
   ⟨.p, w42, 403⟩, ⟨.p, w47, 403⟩, ⟨.p, w25, 404⟩, ⟨.p, w25, 405⟩, ⟨.p, w0, 406⟩, ⟨.p, w2, 406⟩, ⟨.id, w237, 406⟩,
   ⟨.p, w6, 406⟩, ⟨.id, w46, 407⟩, ⟨.p, w39, 407⟩, ⟨.id, w238, 407⟩, ⟨.p, w44, 407⟩, ⟨.id, w239, 407⟩,
   ⟨.p, w39, 407⟩, ⟨.p, w0, 407⟩, ⟨.id, w222, 407⟩, ⟨.p, w65, 407⟩, ⟨.p, w0, 407⟩, ⟨.id, w224, 407⟩, ⟨.p, w13, 407⟩,
   ⟨.id, w236, 407⟩, ⟨.p, w13, 407⟩, ⟨.id, w253, 407⟩, ⟨.p, w39, 407⟩, ⟨.id, w238, 407⟩, ⟨.p, w41, 407⟩,
   ⟨.id, w201, 407⟩, ⟨.p, w0, 407⟩, ⟨.id, w99, 407⟩, ⟨.p, w19, 407⟩, ⟨.id, w241, 408⟩, ⟨.id, w242, 408⟩,
   ⟨.p, w4, 408⟩, ⟨.p, w0, 408⟩, ⟨.id, w222, 408⟩, ⟨.p, w10, 408⟩, ⟨.id, w37, 409⟩, ⟨.id, w254, 409⟩, ⟨.p, w42, 409⟩,
   ⟨.id, w84, 409⟩, ⟨.p, w21, 409⟩, ⟨.id, w244, 409⟩, ⟨.p, w44, 409⟩, ⟨.id, w238, 409⟩, ⟨.p, w47, 409⟩,
   ⟨.p, w48, 409⟩, ⟨.id, w245, 409⟩, ⟨.p, w13, 409⟩, ⟨.id, w242, 409⟩, ⟨.p, w19, 409⟩, ⟨.p, w0, 410⟩,
   ⟨.id, w55, 410⟩, ⟨.p, w13, 410⟩, ⟨.id, w223, 410⟩, ⟨.p, w13, 410⟩, ⟨.id, w246, 410⟩, ⟨.p, w42, 410⟩,
   ⟨.id, w84, 410⟩, ⟨.p, w47, 410⟩, ⟨.p, w255, 410⟩, ⟨.id, w244, 410⟩, ⟨.p, w121, 410⟩, ⟨.id, w248, 410⟩,
   ⟨.p, w42, 410⟩, ⟨.p, w47, 410⟩, ⟨.p, w25, 411⟩, ⟨.p, w25, 412⟩, ⟨.p, w0, 413⟩, ⟨.p, w2, 413⟩, ⟨.id, w237, 413⟩,
   ⟨.p, w6, 413⟩, ⟨.id, w46, 414⟩, ⟨.p, w0, 414⟩, ⟨.id, w224, 414⟩, ⟨.p, w13, 414⟩, ⟨.id, w236, 414⟩, ⟨.p, w13, 414⟩,
   ⟨.id, w256, 414⟩, ⟨.id, w201, 414⟩, ⟨.p, w0, 414⟩, ⟨.id, w99, 414⟩, ⟨.p, w19, 414⟩, ⟨.id, w241, 415⟩,
   ⟨.id, w242, 415⟩, ⟨.p, w4, 415⟩, ⟨.p, w0, 415⟩, ⟨.id, w222, 415⟩, ⟨.p, w10, 415⟩, ⟨.id, w37, 416⟩,
   ⟨.id, w221, 416⟩, ⟨.p, w42, 416⟩, ⟨.id, w84, 416⟩, ⟨.p, w47, 416⟩, ⟨.p, w48, 416⟩, ⟨.id, w245, 416⟩,
   ⟨.p, w13, 416⟩, ⟨.id, w242, 416⟩, ⟨.p, w19, 416⟩, ⟨.p, w1, 417⟩, ⟨.p, w0, 417⟩, ⟨.id, w55, 417⟩, ⟨.p, w13, 417⟩,
   ⟨.id, w223, 417⟩, ⟨.p, w13, 417⟩, ⟨.id, w246, 417⟩, ⟨.p, w42, 417⟩, ⟨.id, w84, 417⟩, ⟨.p, w47, 417⟩,
   ⟨.p, w25, 418⟩, ⟨.p, w25, 419⟩, ⟨.p, w0, 420⟩, ⟨.p, w2, 420⟩, ⟨.id, w237, 420⟩, ⟨.p, w6, 420⟩, ⟨.id, w46, 421⟩,
   ⟨.p, w0, 421⟩, ⟨.id, w224, 421⟩, ⟨.p, w13, 421⟩, ⟨.id, w257, 421⟩, ⟨.p, w13, 421⟩, ⟨.id, w258, 421⟩,
   ⟨.p, w39, 421⟩, ⟨.p, w0, 421⟩, ⟨.id, w222, 421⟩, ⟨.p, w41, 421⟩, ⟨.id, w201, 421⟩, ⟨.p, w0, 421⟩, ⟨.id, w99, 421⟩,
   ⟨.p, w19, 421⟩, ⟨.id, w37, 422⟩, ⟨.id, w259, 422⟩, ⟨.p, w42, 422⟩, ⟨.p, w83, 422⟩, ⟨.id, w84, 422⟩,
   ⟨.p, w21, 422⟩, ⟨.id, w244, 422⟩, ⟨.p, w44, 422⟩, ⟨.p, w83, 422⟩, ⟨.p, w0, 422⟩, ⟨.id, w222, 422⟩, ⟨.p, w47, 422⟩,
   ⟨.p, w48, 422⟩, ⟨.id, w60, 422⟩, ⟨.p, w19, 422⟩, ⟨.p, w0, 423⟩, ⟨.id, w55, 423⟩, ⟨.p, w13, 423⟩, ⟨.id, w223, 423⟩,
   ⟨.p, w13, 423⟩, ⟨.id, w246, 423⟩, ⟨.p, w42, 423⟩, ⟨.p, w16, 423⟩, ⟨.id, w84, 423⟩, ⟨.p, w47, 423⟩,
   ⟨.p, w260, 423⟩, ⟨.p, w16, 423⟩, ⟨.id, w244, 423⟩, ⟨.p, w25, 424⟩, ⟨.p, w25, 425⟩, ⟨.p, w25, 426⟩, ⟨.p, w25, 427⟩,
   ⟨.p, w10, 427⟩, ⟨.p, w0, 429⟩, ⟨.p, w2, 429⟩, ⟨.id, w215, 429⟩, ⟨.p, w42, 429⟩, ⟨.id, w216, 429⟩, ⟨.p, w4, 429⟩,
   ⟨.str, w228, 429⟩, ⟨.p, w47, 429⟩, ⟨.p, w6, 429⟩, ⟨.id, w157, 430⟩, ⟨.id, w193, 430⟩, ⟨.p, w4, 430⟩,
   ⟨.id, w212, 430⟩, ⟨.p, w121, 430⟩, ⟨.id, w193, 430⟩, ⟨.p, w42, 430⟩, ⟨.p, w47, 430⟩, ⟨.p, w10, 430⟩,
   ⟨.p, w0, 432⟩, ⟨.p, w2, 432⟩, ⟨.id, w215, 432⟩, ⟨.p, w42, 432⟩, ⟨.id, w216, 432⟩, ⟨.p, w4, 432⟩,
   ⟨.str, w228, 432⟩, ⟨.p, w47, 432⟩, ⟨.p, w6, 432⟩, ⟨.id, w157, 433⟩, ⟨.id, w261, 433⟩, ⟨.p, w4, 433⟩,
   ⟨.id, w85, 433⟩, ⟨.id, w193, 433⟩, ⟨.p, w19, 433⟩, ⟨.id, w93, 434⟩, ⟨.p, w13, 434⟩, ⟨.id, w75, 434⟩,
   ⟨.p, w126, 434⟩, ⟨.id, w93, 434⟩, ⟨.p, w13, 434⟩, ⟨.id, w76, 434⟩, ⟨.p, w126, 434⟩, ⟨.id, w93, 434⟩,
   ⟨.p, w13, 434⟩, ⟨.id, w77, 434⟩, ⟨.p, w126, 434⟩, ⟨.id, w93, 434⟩, ⟨.p, w13, 434⟩, ⟨.id, w78, 434⟩,
   ⟨.p, w126, 434⟩, ⟨.id, w93, 434⟩, ⟨.p, w13, 434⟩, ⟨.id, w79, 434⟩, ⟨.p, w86, 434⟩, ⟨.p, w19, 434⟩,
   ⟨.id, w157, 435⟩, ⟨.p, w42, 435⟩, ⟨.id, w66, 435⟩, ⟨.p, w21, 435⟩, ⟨.id, w262, 435⟩, ⟨.p, w21, 435⟩,
   ⟨.id, w263, 435⟩, ⟨.p, w47, 435⟩, ⟨.p, w4, 435⟩, ⟨.id, w85, 435⟩, ⟨.id, w193, 435⟩, ⟨.p, w19, 435⟩,
   ⟨.id, w93, 436⟩, ⟨.p, w13, 436⟩, ⟨.id, w75, 436⟩, ⟨.p, w86, 436⟩, ⟨.p, w42, 436⟩, ⟨.id, w26, 436⟩, ⟨.p, w1, 436⟩,
   ⟨.p, w19, 436⟩, ⟨.id, w135, 436⟩, ⟨.p, w25, 436⟩, ⟨.p, w21, 436⟩, ⟨.id, w26, 436⟩, ⟨.p, w1, 436⟩, ⟨.p, w19, 436⟩,
   ⟨.id, w264, 436⟩, ⟨.p, w25, 436⟩, ⟨.p, w21, 436⟩, ⟨.id, w26, 436⟩, ⟨.p, w1, 436⟩, ⟨.p, w19, 436⟩,
   ⟨.id, w265, 436⟩, ⟨.p, w25, 436⟩, ⟨.p, w47, 436⟩, ⟨.p, w21, 436⟩, ⟨.id, w93, 437⟩, ⟨.p, w13, 437⟩,
   ⟨.id, w76, 437⟩, ⟨.p, w86, 437⟩, ⟨.p, w42, 437⟩, ⟨.id, w26, 437⟩, ⟨.p, w1, 437⟩, ⟨.p, w19, 437⟩, ⟨.id, w136, 437⟩,
   ⟨.p, w25, 437⟩, ⟨.p, w21, 437⟩, ⟨.id, w26, 437⟩, ⟨.p, w1, 437⟩, ⟨.p, w19, 437⟩, ⟨.id, w266, 437⟩, ⟨.p, w25, 437⟩,
   ⟨.p, w21, 437⟩, ⟨.id, w26, 437⟩, ⟨.p, w1, 437⟩, ⟨.p, w19, 437⟩, ⟨.id, w267, 437⟩, ⟨.p, w25, 437⟩, ⟨.p, w47, 437⟩,
   ⟨.p, w21, 437⟩, ⟨.id, w93, 438⟩, ⟨.p, w13, 438⟩, ⟨.id, w77, 438⟩, ⟨.p, w86, 438⟩, ⟨.p, w42, 438⟩, ⟨.id, w26, 438⟩,
   ⟨.p, w1, 438⟩, ⟨.p, w19, 438⟩, ⟨.id, w102, 438⟩, ⟨.p, w25, 438⟩, ⟨.p, w21, 438⟩, ⟨.id, w26, 438⟩, ⟨.p, w1, 438⟩,
   ⟨.p, w19, 438⟩, ⟨.id, w268, 438⟩, ⟨.p, w25, 438⟩, ⟨.p, w21, 438⟩, ⟨.id, w26, 438⟩, ⟨.p, w1, 438⟩, ⟨.p, w19, 438⟩,
   ⟨.id, w269, 438⟩, ⟨.p, w25, 438⟩, ⟨.p, w47, 438⟩, ⟨.p, w21, 438⟩, ⟨.id, w93, 439⟩, ⟨.p, w13, 439⟩,
   ⟨.id, w78, 439⟩, ⟨.p, w86, 439⟩, ⟨.p, w42, 439⟩, ⟨.id, w26, 439⟩, ⟨.p, w1, 439⟩, ⟨.p, w19, 439⟩, ⟨.id, w137, 439⟩,
   ⟨.p, w25, 439⟩, ⟨.p, w21, 439⟩, ⟨.id, w26, 439⟩, ⟨.p, w1, 439⟩, ⟨.p, w19, 439⟩, ⟨.id, w270, 439⟩, ⟨.p, w25, 439⟩,
   ⟨.p, w21, 439⟩, ⟨.id, w26, 439⟩, ⟨.p, w1, 439⟩, ⟨.p, w19, 439⟩, ⟨.id, w271, 439⟩, ⟨.p, w25, 439⟩, ⟨.p, w47, 439⟩,
   ⟨.p, w21, 439⟩, ⟨.id, w93, 440⟩, ⟨.p, w13, 440⟩, ⟨.id, w79, 440⟩, ⟨.p, w86, 440⟩, ⟨.p, w42, 440⟩, ⟨.id, w26, 440⟩,
   ⟨.p, w1, 440⟩, ⟨.p, w19, 440⟩, ⟨.id, w138, 440⟩, ⟨.p, w25, 440⟩, ⟨.p, w21, 440⟩, ⟨.id, w26, 440⟩, ⟨.p, w1, 440⟩,
   ⟨.p, w19, 440⟩, ⟨.id, w272, 440⟩, ⟨.p, w25, 440⟩, ⟨.p, w21, 440⟩, ⟨.id, w26, 440⟩, ⟨.p, w1, 440⟩, ⟨.p, w19, 440⟩,
   ⟨.id, w273, 440⟩, ⟨.p, w25, 440⟩, ⟨.p, w47, 440⟩, ⟨.p, w21, 440⟩, ⟨.id, w141, 441⟩, ⟨.p, w86, 441⟩,
   ⟨.id, w274, 441⟩, ⟨.p, w1, 441⟩, ⟨.p, w42, 441⟩, ⟨.p, w47, 441⟩, ⟨.p, w21, 441⟩, ⟨.p, w25, 442⟩, ⟨.p, w10, 442⟩,
   ⟨.id, w157, 443⟩, ⟨.id, w275, 443⟩, ⟨.p, w4, 443⟩, ⟨.id, w152, 443⟩, ⟨.id, w212, 443⟩, ⟨.p, w121, 443⟩,
   ⟨.id, w67, 443⟩, ⟨.p, w19, 443⟩, ⟨.id, w26, 444⟩, ⟨.p, w1, 444⟩, ⟨.p, w19, 444⟩, ⟨.id, w152, 445⟩,
   ⟨.id, w276, 445⟩, ⟨.p, w83, 445⟩, ⟨.p, w1, 445⟩, ⟨.p, w0, 445⟩, ⟨.id, w230, 445⟩, ⟨.p, w277, 445⟩,
   ⟨.int, w130, 445⟩, ⟨.p, w19, 445⟩, ⟨.id, w11, 446⟩, ⟨.p, w0, 446⟩, ⟨.id, w228, 446⟩, ⟨.p, w13, 446⟩,
   ⟨.id, w278, 446⟩, ⟨.p, w13, 446⟩, ⟨.id, w35, 446⟩, ⟨.p, w10, 446⟩, ⟨.id, w279, 447⟩, ⟨.p, w0, 447⟩,
   ⟨.id, w224, 447⟩, ⟨.p, w13, 447⟩, ⟨.id, w280, 447⟩, ⟨.p, w13, 447⟩, ⟨.id, w281, 447⟩, ⟨.p, w13, 447⟩,
   ⟨.id, w49, 447⟩, ⟨.p, w42, 447⟩, ⟨.id, w282, 448⟩, ⟨.p, w13, 448⟩, ⟨.id, w35, 448⟩, ⟨.p, w13, 448⟩,
   ⟨.id, w283, 448⟩, ⟨.p, w42, 448⟩, ⟨.str, w284, 448⟩, ⟨.p, w47, 448⟩, ⟨.p, w47, 449⟩, ⟨.p, w25, 450⟩,
   ⟨.p, w25, 451⟩, ⟨.p, w25, 452⟩, ⟨.id, w156, 452⟩, ⟨.p, w19, 452⟩, ⟨.id, w26, 453⟩, ⟨.p, w1, 453⟩, ⟨.p, w19, 453⟩,
   ⟨.p, w25, 453⟩, ⟨.p, w25, 454⟩, ⟨.p, w10, 454⟩, ⟨.id, w26, 455⟩, ⟨.p, w1, 455⟩, ⟨.p, w19, 455⟩, ⟨.id, w37, 456⟩,
   ⟨.id, w285, 456⟩, ⟨.p, w39, 456⟩, ⟨.id, w286, 456⟩, ⟨.p, w44, 456⟩, ⟨.p, w0, 456⟩, ⟨.id, w228, 456⟩,
   ⟨.p, w13, 456⟩, ⟨.id, w287, 456⟩, ⟨.p, w41, 456⟩, ⟨.p, w42, 456⟩, ⟨.id, w288, 457⟩, ⟨.p, w44, 457⟩, ⟨.p, w0, 457⟩,
   ⟨.id, w55, 457⟩, ⟨.p, w13, 457⟩, ⟨.id, w223, 457⟩, ⟨.p, w39, 457⟩, ⟨.p, w0, 457⟩, ⟨.id, w99, 457⟩, ⟨.p, w41, 457⟩,
   ⟨.p, w21, 457⟩, ⟨.id, w289, 457⟩, ⟨.p, w44, 457⟩, ⟨.id, w286, 457⟩, ⟨.p, w21, 457⟩, ⟨.p, w47, 458⟩,
   ⟨.p, w48, 458⟩, ⟨.p, w0, 458⟩, ⟨.id, w224, 458⟩, ⟨.p, w13, 458⟩, ⟨.id, w290, 458⟩, ⟨.p, w13, 458⟩,
   ⟨.id, w36, 458⟩, ⟨.p, w39, 458⟩, ⟨.id, w286, 458⟩, ⟨.p, w13, 458⟩, ⟨.id, w145, 458⟩, ⟨.p, w21, 458⟩,
   ⟨.id, w286, 458⟩, ⟨.p, w13, 458⟩, ⟨.id, w35, 458⟩, ⟨.p, w41, 458⟩, ⟨.p, w19, 458⟩, ⟨.id, w157, 459⟩,
   ⟨.id, w276, 459⟩, ⟨.p, w4, 459⟩, ⟨.p, w39, 460⟩, ⟨.p, w0, 460⟩, ⟨.id, w62, 460⟩, ⟨.id, w23, 460⟩, ⟨.p, w0, 460⟩,
   ⟨.id, w55, 460⟩, ⟨.p, w13, 460⟩, ⟨.id, w225, 460⟩, ⟨.p, w13, 460⟩, ⟨.id, w291, 460⟩, ⟨.p, w41, 460⟩,
   ⟨.p, w13, 460⟩, ⟨.p, w0, 460⟩, ⟨.id, w263, 460⟩, ⟨.p, w42, 460⟩, ⟨.p, w83, 460⟩, ⟨.id, w288, 460⟩,
   ⟨.p, w121, 460⟩, ⟨.id, w292, 460⟩, ⟨.p, w47, 460⟩, ⟨.p, w10, 460⟩, ⟨.p, w0, 461⟩, ⟨.id, w228, 461⟩,
   ⟨.p, w13, 461⟩, ⟨.id, w293, 461⟩, ⟨.p, w13, 461⟩, ⟨.id, w285, 461⟩, ⟨.p, w42, 461⟩, ⟨.p, w83, 461⟩,
   ⟨.id, w276, 461⟩, ⟨.p, w21, 461⟩, ⟨.id, w289, 461⟩, ⟨.p, w47, 461⟩, ⟨.p, w25, 462⟩, ⟨.id, w37, 463⟩,
   ⟨.id, w294, 463⟩, ⟨.p, w39, 463⟩, ⟨.life, w295, 463⟩, ⟨.p, w21, 463⟩, ⟨.id, w282, 463⟩, ⟨.p, w44, 463⟩,
   ⟨.p, w0, 463⟩, ⟨.id, w228, 463⟩, ⟨.p, w13, 463⟩, ⟨.id, w296, 463⟩, ⟨.p, w39, 463⟩, ⟨.life, w295, 463⟩,
   ⟨.p, w65, 463⟩, ⟨.p, w42, 463⟩, ⟨.id, w278, 464⟩, ⟨.p, w44, 464⟩, ⟨.id, w282, 464⟩, ⟨.p, w21, 464⟩,
   ⟨.p, w47, 465⟩, ⟨.p, w48, 465⟩, ⟨.p, w0, 465⟩, ⟨.id, w224, 465⟩, ⟨.p, w13, 465⟩, ⟨.id, w290, 465⟩, ⟨.p, w13, 465⟩,
   ⟨.id, w36, 465⟩, ⟨.p, w39, 465⟩, ⟨.p, w0, 465⟩, ⟨.id, w55, 465⟩, ⟨.p, w13, 465⟩, ⟨.id, w223, 465⟩, ⟨.p, w39, 465⟩,
   ⟨.p, w0, 465⟩, ⟨.id, w99, 465⟩, ⟨.p, w41, 465⟩, ⟨.p, w21, 465⟩, ⟨.id, w282, 465⟩, ⟨.p, w13, 465⟩, ⟨.id, w35, 465⟩,
   ⟨.p, w41, 465⟩, ⟨.p, w19, 465⟩, ⟨.id, w157, 466⟩, ⟨.id, w276, 466⟩, ⟨.p, w4, 466⟩, ⟨.p, w39, 466⟩, ⟨.p, w0, 466⟩,
   ⟨.id, w66, 466⟩, ⟨.id, w23, 466⟩, ⟨.p, w0, 466⟩, ⟨.id, w228, 466⟩, ⟨.p, w13, 466⟩, ⟨.id, w297, 466⟩,
   ⟨.p, w41, 466⟩, ⟨.p, w13, 466⟩, ⟨.id, w294, 466⟩, ⟨.p, w42, 466⟩, ⟨.id, w278, 466⟩, ⟨.p, w47, 466⟩,
   ⟨.p, w144, 466⟩, ⟨.p, w10, 466⟩, ⟨.p, w0, 467⟩, ⟨.id, w275, 467⟩, ⟨.id, w157, 468⟩, ⟨.id, w276, 468⟩,
   ⟨.p, w4, 468⟩, ⟨.p, w39, 468⟩, ⟨.p, w0, 468⟩, ⟨.id, w62, 468⟩, ⟨.id, w23, 468⟩, ⟨.p, w0, 468⟩, ⟨.id, w55, 468⟩,
   ⟨.p, w13, 468⟩, ⟨.id, w225, 468⟩, ⟨.p, w13, 468⟩, ⟨.id, w291, 468⟩, ⟨.p, w41, 468⟩, ⟨.p, w13, 468⟩, ⟨.p, w0, 468⟩,
   ⟨.id, w262, 468⟩, ⟨.p, w42, 468⟩, ⟨.id, w276, 468⟩, ⟨.p, w47, 468⟩, ⟨.p, w10, 468⟩, ⟨.p, w0, 469⟩,
   ⟨.id, w224, 469⟩, ⟨.p, w13, 469⟩, ⟨.id, w280, 469⟩, ⟨.p, w13, 469⟩, ⟨.id, w281, 469⟩, ⟨.p, w13, 469⟩,
   ⟨.id, w145, 469⟩, ⟨.p, w42, 469⟩, ⟨.p, w0, 469⟩, ⟨.id, w55, 469⟩, ⟨.p, w13, 469⟩, ⟨.id, w223, 469⟩,
   ⟨.p, w19, 469⟩, ⟨.id, w292, 470⟩, ⟨.p, w44, 470⟩, ⟨.id, w276, 470⟩, ⟨.p, w83, 470⟩, ⟨.p, w0, 470⟩,
   ⟨.id, w230, 470⟩, ⟨.p, w21, 470⟩, ⟨.p, w25, 471⟩, ⟨.p, w47, 471⟩, ⟨.p, w25, 472⟩, ⟨.p, w25, 473⟩, ⟨.p, w25, 474⟩,
   ⟨.id, w93, 475⟩, ⟨.p, w13, 475⟩, ⟨.id, w94, 475⟩, ⟨.p, w86, 475⟩, ⟨.p, w19, 475⟩, ⟨.id, w157, 476⟩,
   ⟨.id, w298, 476⟩, ⟨.p, w4, 476⟩, ⟨.id, w142, 476⟩, ⟨.p, w1, 476⟩, ⟨.p, w42, 476⟩, ⟨.str, w299, 476⟩,
   ⟨.p, w21, 476⟩, ⟨.id, w99, 476⟩, ⟨.p, w47, 476⟩, ⟨.p, w10, 476⟩, ⟨.id, w26, 477⟩, ⟨.p, w1, 477⟩, ⟨.p, w19, 477⟩,
   ⟨.id, w37, 478⟩, ⟨.id, w285, 478⟩, ⟨.p, w39, 478⟩, ⟨.id, w286, 478⟩, ⟨.p, w44, 478⟩, ⟨.p, w0, 478⟩,
   ⟨.id, w228, 478⟩, ⟨.p, w13, 478⟩, ⟨.id, w287, 478⟩, ⟨.p, w41, 478⟩, ⟨.p, w42, 478⟩, ⟨.id, w288, 479⟩,
   ⟨.p, w44, 479⟩, ⟨.p, w0, 479⟩, ⟨.id, w55, 479⟩, ⟨.p, w13, 479⟩, ⟨.id, w223, 479⟩, ⟨.p, w39, 479⟩, ⟨.p, w0, 479⟩,
   ⟨.id, w99, 479⟩, ⟨.p, w41, 479⟩, ⟨.p, w21, 479⟩, ⟨.id, w289, 479⟩, ⟨.p, w44, 479⟩, ⟨.id, w286, 479⟩,
   ⟨.p, w21, 479⟩, ⟨.p, w47, 480⟩, ⟨.p, w48, 480⟩, ⟨.p, w0, 480⟩, ⟨.id, w224, 480⟩, ⟨.p, w13, 480⟩, ⟨.id, w290, 480⟩,
   ⟨.p, w13, 480⟩, ⟨.id, w36, 480⟩, ⟨.p, w39, 480⟩, ⟨.id, w286, 480⟩, ⟨.p, w13, 480⟩, ⟨.id, w145, 480⟩,
   ⟨.p, w21, 480⟩, ⟨.id, w286, 480⟩, ⟨.p, w13, 480⟩, ⟨.id, w35, 480⟩, ⟨.p, w41, 480⟩, ⟨.p, w19, 480⟩,
   ⟨.id, w11, 481⟩, ⟨.p, w0, 481⟩, ⟨.id, w228, 481⟩, ⟨.p, w13, 481⟩, ⟨.id, w289, 481⟩, ⟨.p, w13, 481⟩,
   ⟨.id, w300, 481⟩, ⟨.p, w10, 481⟩, ⟨.id, w157, 482⟩, ⟨.id, w132, 482⟩, ⟨.id, w301, 482⟩, ⟨.p, w4, 482⟩,
   ⟨.id, w289, 482⟩, ⟨.p, w121, 482⟩, ⟨.id, w302, 482⟩, ⟨.p, w42, 482⟩, ⟨.p, w0, 482⟩, ⟨.id, w224, 482⟩,
   ⟨.p, w13, 482⟩, ⟨.id, w280, 482⟩, ⟨.p, w13, 482⟩, ⟨.id, w281, 482⟩, ⟨.p, w13, 482⟩, ⟨.id, w96, 482⟩,
   ⟨.p, w42, 482⟩, ⟨.id, w288, 482⟩, ⟨.p, w121, 482⟩, ⟨.id, w207, 482⟩, ⟨.p, w42, 482⟩, ⟨.p, w47, 482⟩,
   ⟨.p, w47, 482⟩, ⟨.p, w47, 482⟩, ⟨.p, w144, 482⟩, ⟨.p, w10, 482⟩, ⟨.id, w201, 483⟩, ⟨.id, w204, 483⟩,
   ⟨.id, w202, 483⟩, ⟨.id, w288, 483⟩, ⟨.p, w19, 483⟩, ⟨.id, w301, 484⟩, ⟨.p, w121, 484⟩, ⟨.id, w303, 484⟩,
   ⟨.p, w42, 484⟩, ⟨.p, w83, 484⟩, ⟨.id, w204, 484⟩, ⟨.p, w47, 484⟩, ⟨.p, w144, 484⟩, ⟨.p, w10, 484⟩, ⟨.p, w25, 485⟩,
   ⟨.id, w301, 486⟩, ⟨.p, w121, 486⟩, ⟨.id, w304, 486⟩, ⟨.p, w42, 486⟩, ⟨.p, w47, 486⟩, ⟨.p, w25, 487⟩,
   ⟨.id, w37, 488⟩, ⟨.id, w294, 488⟩, ⟨.p, w39, 488⟩, ⟨.life, w295, 488⟩, ⟨.p, w21, 488⟩, ⟨.id, w282, 488⟩,
   ⟨.p, w44, 488⟩, ⟨.p, w0, 488⟩, ⟨.id, w228, 488⟩, ⟨.p, w13, 488⟩, ⟨.id, w296, 488⟩, ⟨.p, w39, 488⟩,
   ⟨.life, w295, 488⟩, ⟨.p, w65, 488⟩, ⟨.p, w42, 488⟩, ⟨.id, w278, 489⟩, ⟨.p, w44, 489⟩, ⟨.id, w282, 489⟩,
   ⟨.p, w21, 489⟩, ⟨.p, w47, 490⟩, ⟨.p, w48, 490⟩, ⟨.p, w0, 490⟩, ⟨.id, w224, 490⟩, ⟨.p, w13, 490⟩, ⟨.id, w290, 490⟩,
   ⟨.p, w13, 490⟩, ⟨.id, w36, 490⟩, ⟨.p, w39, 490⟩, ⟨.p, w0, 490⟩, ⟨.id, w55, 490⟩, ⟨.p, w13, 490⟩, ⟨.id, w223, 490⟩,
   ⟨.p, w39, 490⟩, ⟨.p, w0, 490⟩, ⟨.id, w99, 490⟩, ⟨.p, w41, 490⟩, ⟨.p, w21, 490⟩, ⟨.id, w282, 490⟩, ⟨.p, w13, 490⟩,
   ⟨.id, w35, 490⟩, ⟨.p, w41, 490⟩, ⟨.p, w19, 490⟩, ⟨.id, w57, 491⟩, ⟨.id, w305, 491⟩, ⟨.p, w10, 491⟩,
   ⟨.id, w46, 492⟩, ⟨.p, w39, 492⟩, ⟨.life, w295, 492⟩, ⟨.p, w41, 492⟩, ⟨.p, w0, 492⟩, ⟨.id, w228, 492⟩,
   ⟨.p, w13, 492⟩, ⟨.id, w278, 492⟩, ⟨.p, w13, 492⟩, ⟨.id, w305, 492⟩, ⟨.p, w39, 492⟩, ⟨.life, w295, 492⟩,
   ⟨.p, w41, 492⟩, ⟨.id, w201, 492⟩, ⟨.id, w305, 492⟩, ⟨.p, w19, 492⟩, ⟨.id, w241, 493⟩, ⟨.id, w306, 493⟩,
   ⟨.p, w4, 493⟩, ⟨.p, w0, 493⟩, ⟨.id, w55, 493⟩, ⟨.p, w13, 493⟩, ⟨.id, w223, 493⟩, ⟨.p, w39, 493⟩, ⟨.p, w0, 493⟩,
   ⟨.id, w99, 493⟩, ⟨.p, w41, 493⟩, ⟨.p, w10, 493⟩, ⟨.id, w37, 494⟩, ⟨.id, w307, 494⟩, ⟨.p, w42, 494⟩,
   ⟨.p, w83, 495⟩, ⟨.id, w84, 495⟩, ⟨.p, w21, 495⟩, ⟨.id, w308, 495⟩, ⟨.p, w44, 495⟩, ⟨.p, w83, 495⟩,
   ⟨.id, w132, 495⟩, ⟨.p, w0, 495⟩, ⟨.id, w224, 495⟩, ⟨.p, w13, 495⟩, ⟨.id, w30, 495⟩, ⟨.p, w13, 495⟩,
   ⟨.id, w309, 495⟩, ⟨.p, w21, 495⟩, ⟨.p, w47, 496⟩, ⟨.p, w48, 496⟩, ⟨.p, w0, 496⟩, ⟨.id, w224, 496⟩, ⟨.p, w13, 496⟩,
   ⟨.id, w30, 496⟩, ⟨.p, w13, 496⟩, ⟨.id, w36, 496⟩, ⟨.p, w19, 496⟩, ⟨.id, w310, 497⟩, ⟨.p, w1, 497⟩, ⟨.p, w42, 497⟩,
   ⟨.id, w308, 497⟩, ⟨.p, w21, 497⟩, ⟨.p, w0, 497⟩, ⟨.id, w298, 497⟩, ⟨.p, w47, 497⟩, ⟨.p, w25, 498⟩,
   ⟨.id, w37, 499⟩, ⟨.id, w311, 499⟩, ⟨.p, w39, 499⟩, ⟨.id, w312, 499⟩, ⟨.p, w41, 499⟩, ⟨.p, w42, 499⟩,
   ⟨.id, w132, 500⟩, ⟨.id, w84, 500⟩, ⟨.p, w21, 500⟩, ⟨.id, w132, 500⟩, ⟨.id, w301, 500⟩, ⟨.p, w44, 500⟩,
   ⟨.id, w312, 500⟩, ⟨.p, w21, 500⟩, ⟨.p, w47, 501⟩, ⟨.p, w48, 501⟩, ⟨.p, w0, 501⟩, ⟨.id, w224, 501⟩, ⟨.p, w13, 501⟩,
   ⟨.id, w290, 501⟩, ⟨.p, w13, 501⟩, ⟨.id, w36, 501⟩, ⟨.p, w39, 501⟩, ⟨.id, w245, 501⟩, ⟨.p, w13, 501⟩,
   ⟨.id, w306, 501⟩, ⟨.p, w21, 501⟩, ⟨.id, w312, 501⟩, ⟨.p, w13, 501⟩, ⟨.id, w35, 501⟩, ⟨.p, w41, 501⟩,
   ⟨.id, w313, 501⟩, ⟨.id, w312, 502⟩, ⟨.p, w44, 502⟩, ⟨.p, w0, 502⟩, ⟨.id, w228, 502⟩, ⟨.p, w13, 502⟩,
   ⟨.id, w278, 502⟩, ⟨.p, w13, 502⟩, ⟨.id, w314, 502⟩, ⟨.p, w39, 502⟩, ⟨.life, w295, 502⟩, ⟨.p, w41, 502⟩,
   ⟨.p, w19, 503⟩, ⟨.id, w157, 504⟩, ⟨.id, w132, 504⟩, ⟨.id, w315, 504⟩, ⟨.p, w4, 504⟩, ⟨.p, w0, 504⟩,
   ⟨.id, w55, 504⟩, ⟨.p, w13, 504⟩, ⟨.id, w223, 504⟩, ⟨.p, w13, 504⟩, ⟨.p, w39, 504⟩, ⟨.p, w0, 504⟩, ⟨.id, w99, 504⟩,
   ⟨.p, w41, 504⟩, ⟨.p, w13, 504⟩, ⟨.id, w50, 504⟩, ⟨.p, w42, 504⟩, ⟨.p, w47, 504⟩, ⟨.p, w10, 504⟩, ⟨.id, w206, 505⟩,
   ⟨.id, w157, 505⟩, ⟨.p, w0, 505⟩, ⟨.id, w224, 505⟩, ⟨.p, w13, 505⟩, ⟨.id, w280, 505⟩, ⟨.p, w13, 505⟩,
   ⟨.id, w281, 505⟩, ⟨.p, w13, 505⟩, ⟨.id, w96, 505⟩, ⟨.p, w42, 505⟩, ⟨.id, w171, 505⟩, ⟨.p, w47, 505⟩,
   ⟨.p, w4, 505⟩, ⟨.id, w301, 505⟩, ⟨.p, w121, 505⟩, ⟨.id, w316, 505⟩, ⟨.p, w13, 505⟩, ⟨.p, w39, 505⟩, ⟨.p, w0, 505⟩,
   ⟨.id, w99, 505⟩, ⟨.p, w41, 505⟩, ⟨.p, w42, 505⟩, ⟨.p, w47, 505⟩, ⟨.p, w144, 505⟩, ⟨.p, w19, 505⟩,
   ⟨.id, w315, 506⟩, ⟨.p, w208, 506⟩, ⟨.id, w171, 506⟩, ⟨.p, w10, 506⟩, ⟨.p, w25, 507⟩, ⟨.p, w0, 508⟩,
   ⟨.id, w224, 508⟩, ⟨.p, w13, 508⟩, ⟨.id, w280, 508⟩, ⟨.p, w13, 508⟩, ⟨.id, w281, 508⟩, ⟨.p, w13, 508⟩,
   ⟨.id, w145, 508⟩, ⟨.p, w42, 508⟩, ⟨.id, w315, 508⟩, ⟨.p, w47, 508⟩, ⟨.p, w25, 509⟩, ⟨.p, w25, 510⟩,
   ⟨.id, w278, 511⟩, ⟨.p, w121, 511⟩, ⟨.id, w317, 511⟩, ⟨.p, w42, 511⟩, ⟨.id, w305, 511⟩, ⟨.p, w47, 511⟩,
   ⟨.p, w25, 512⟩, ⟨.p, w25, 513⟩, ⟨.p, w25, 514⟩, ⟨.id, w93, 515⟩, ⟨.p, w13, 515⟩, ⟨.id, w95, 515⟩, ⟨.p, w86, 515⟩,
   ⟨.p, w19, 515⟩, ⟨.id, w157, 516⟩, ⟨.id, w298, 516⟩, ⟨.p, w4, 516⟩, ⟨.id, w142, 516⟩, ⟨.p, w1, 516⟩,
   ⟨.p, w42, 516⟩, ⟨.str, w318, 516⟩, ⟨.p, w21, 516⟩, ⟨.id, w99, 516⟩, ⟨.p, w47, 516⟩, ⟨.p, w10, 516⟩,
   ⟨.id, w26, 517⟩, ⟨.p, w1, 517⟩, ⟨.p, w19, 517⟩, ⟨.id, w37, 518⟩, ⟨.id, w285, 518⟩, ⟨.p, w39, 518⟩,
   ⟨.id, w286, 518⟩, ⟨.p, w44, 518⟩, ⟨.p, w0, 518⟩, ⟨.id, w228, 518⟩, ⟨.p, w13, 518⟩, ⟨.id, w287, 518⟩,
   ⟨.p, w41, 518⟩, ⟨.p, w42, 518⟩, ⟨.id, w288, 519⟩, ⟨.p, w44, 519⟩, ⟨.p, w0, 519⟩, ⟨.id, w55, 519⟩, ⟨.p, w13, 519⟩,
   ⟨.id, w223, 519⟩, ⟨.p, w39, 519⟩, ⟨.p, w0, 519⟩, ⟨.id, w99, 519⟩, ⟨.p, w41, 519⟩, ⟨.p, w21, 519⟩,
   ⟨.id, w289, 519⟩, ⟨.p, w44, 519⟩, ⟨.id, w286, 519⟩, ⟨.p, w21, 519⟩, ⟨.p, w47, 520⟩, ⟨.p, w48, 520⟩, ⟨.p, w0, 520⟩,
   ⟨.id, w224, 520⟩, ⟨.p, w13, 520⟩, ⟨.id, w290, 520⟩, ⟨.p, w13, 520⟩, ⟨.id, w36, 520⟩, ⟨.p, w39, 520⟩,
   ⟨.id, w286, 520⟩, ⟨.p, w13, 520⟩, ⟨.id, w145, 520⟩, ⟨.p, w21, 520⟩, ⟨.id, w286, 520⟩, ⟨.p, w13, 520⟩,
   ⟨.id, w35, 520⟩, ⟨.p, w41, 520⟩, ⟨.p, w19, 520⟩, ⟨.id, w11, 521⟩, ⟨.p, w0, 521⟩, ⟨.id, w228, 521⟩, ⟨.p, w13, 521⟩,
   ⟨.id, w289, 521⟩, ⟨.p, w13, 521⟩, ⟨.id, w319, 521⟩, ⟨.p, w10, 521⟩, ⟨.id, w157, 522⟩, ⟨.id, w132, 522⟩,
   ⟨.id, w125, 522⟩, ⟨.p, w4, 522⟩, ⟨.id, w289, 522⟩, ⟨.p, w121, 522⟩, ⟨.id, w320, 522⟩, ⟨.p, w42, 522⟩,
   ⟨.p, w0, 522⟩, ⟨.id, w224, 522⟩, ⟨.p, w13, 522⟩, ⟨.id, w280, 522⟩, ⟨.p, w13, 522⟩, ⟨.id, w281, 522⟩,
   ⟨.p, w13, 522⟩, ⟨.id, w96, 522⟩, ⟨.p, w42, 522⟩, ⟨.id, w288, 522⟩, ⟨.p, w121, 522⟩, ⟨.id, w207, 522⟩,
   ⟨.p, w42, 522⟩, ⟨.p, w47, 522⟩, ⟨.p, w47, 522⟩, ⟨.p, w47, 522⟩, ⟨.p, w144, 522⟩, ⟨.p, w10, 522⟩, ⟨.id, w201, 523⟩,
   ⟨.id, w204, 523⟩, ⟨.id, w202, 523⟩, ⟨.id, w288, 523⟩, ⟨.p, w19, 523⟩, ⟨.id, w125, 524⟩, ⟨.p, w121, 524⟩,
   ⟨.id, w321, 524⟩, ⟨.p, w42, 524⟩, ⟨.p, w83, 524⟩, ⟨.id, w204, 524⟩, ⟨.p, w21, 524⟩, ⟨.p, w83, 524⟩,
   ⟨.id, w147, 524⟩, ⟨.p, w47, 524⟩, ⟨.p, w144, 524⟩, ⟨.p, w10, 524⟩, ⟨.p, w25, 525⟩, ⟨.id, w125, 526⟩,
   ⟨.p, w121, 526⟩, ⟨.id, w304, 526⟩, ⟨.p, w42, 526⟩, ⟨.p, w47, 526⟩, ⟨.p, w25, 527⟩, ⟨.id, w37, 528⟩,
   ⟨.id, w294, 528⟩, ⟨.p, w39, 528⟩, ⟨.life, w295, 528⟩, ⟨.p, w21, 528⟩, ⟨.id, w282, 528⟩, ⟨.p, w44, 528⟩,
   ⟨.p, w0, 528⟩, ⟨.id, w228, 528⟩, ⟨.p, w13, 528⟩, ⟨.id, w296, 528⟩, ⟨.p, w39, 528⟩, ⟨.life, w295, 528⟩,
   ⟨.p, w65, 528⟩, ⟨.p, w42, 528⟩, ⟨.id, w278, 529⟩, ⟨.p, w44, 529⟩, ⟨.id, w282, 529⟩, ⟨.p, w21, 529⟩,
   ⟨.p, w47, 530⟩, ⟨.p, w48, 530⟩, ⟨.p, w0, 530⟩, ⟨.id, w224, 530⟩, ⟨.p, w13, 530⟩, ⟨.id, w290, 530⟩, ⟨.p, w13, 530⟩,
   ⟨.id, w36, 530⟩, ⟨.p, w39, 530⟩, ⟨.p, w0, 530⟩, ⟨.id, w55, 530⟩, ⟨.p, w13, 530⟩, ⟨.id, w223, 530⟩, ⟨.p, w39, 530⟩,
   ⟨.p, w0, 530⟩, ⟨.id, w99, 530⟩, ⟨.p, w41, 530⟩, ⟨.p, w21, 530⟩, ⟨.id, w282, 530⟩, ⟨.p, w13, 530⟩, ⟨.id, w35, 530⟩,
   ⟨.p, w41, 530⟩, ⟨.p, w19, 530⟩, ⟨.id, w57, 531⟩, ⟨.id, w305, 531⟩, ⟨.p, w10, 531⟩, ⟨.id, w46, 532⟩,
   ⟨.p, w39, 532⟩, ⟨.life, w295, 532⟩, ⟨.p, w41, 532⟩, ⟨.p, w0, 532⟩, ⟨.id, w228, 532⟩, ⟨.p, w13, 532⟩,
   ⟨.id, w278, 532⟩, ⟨.p, w13, 532⟩, ⟨.id, w305, 532⟩, ⟨.p, w39, 532⟩, ⟨.life, w295, 532⟩, ⟨.p, w41, 532⟩,
   ⟨.id, w201, 532⟩, ⟨.id, w305, 532⟩, ⟨.p, w19, 532⟩, ⟨.id, w241, 533⟩, ⟨.id, w306, 533⟩, ⟨.p, w4, 533⟩,
   ⟨.p, w0, 533⟩, ⟨.id, w55, 533⟩, ⟨.p, w13, 533⟩, ⟨.id, w223, 533⟩, ⟨.p, w39, 533⟩, ⟨.p, w0, 533⟩, ⟨.id, w99, 533⟩,
   ⟨.p, w41, 533⟩, ⟨.p, w10, 533⟩, ⟨.id, w37, 534⟩, ⟨.id, w307, 534⟩, ⟨.p, w42, 534⟩, ⟨.p, w83, 535⟩,
   ⟨.id, w84, 535⟩, ⟨.p, w21, 535⟩, ⟨.id, w308, 535⟩, ⟨.p, w44, 535⟩, ⟨.p, w83, 535⟩, ⟨.id, w132, 535⟩,
   ⟨.p, w0, 535⟩, ⟨.id, w224, 535⟩, ⟨.p, w13, 535⟩, ⟨.id, w30, 535⟩, ⟨.p, w13, 535⟩, ⟨.id, w309, 535⟩,
   ⟨.p, w21, 535⟩, ⟨.p, w47, 536⟩, ⟨.p, w48, 536⟩, ⟨.p, w0, 536⟩, ⟨.id, w224, 536⟩, ⟨.p, w13, 536⟩, ⟨.id, w30, 536⟩,
   ⟨.p, w13, 536⟩, ⟨.id, w36, 536⟩, ⟨.p, w19, 536⟩, ⟨.id, w310, 537⟩, ⟨.p, w1, 537⟩, ⟨.p, w42, 537⟩,
   ⟨.id, w308, 537⟩, ⟨.p, w21, 537⟩, ⟨.p, w0, 537⟩, ⟨.id, w298, 537⟩, ⟨.p, w47, 537⟩, ⟨.p, w25, 538⟩,
   ⟨.id, w37, 539⟩, ⟨.id, w322, 539⟩, ⟨.p, w39, 539⟩, ⟨.id, w312, 539⟩, ⟨.p, w41, 539⟩, ⟨.p, w42, 539⟩,
   ⟨.id, w132, 540⟩, ⟨.id, w84, 540⟩, ⟨.p, w21, 540⟩, ⟨.id, w132, 540⟩, ⟨.id, w125, 540⟩, ⟨.p, w44, 540⟩,
   ⟨.id, w312, 540⟩, ⟨.p, w21, 540⟩, ⟨.p, w47, 541⟩, ⟨.p, w48, 541⟩, ⟨.p, w0, 541⟩, ⟨.id, w224, 541⟩, ⟨.p, w13, 541⟩,
   ⟨.id, w290, 541⟩, ⟨.p, w13, 541⟩, ⟨.id, w36, 541⟩, ⟨.p, w39, 541⟩, ⟨.id, w245, 541⟩, ⟨.p, w13, 541⟩,
   ⟨.id, w306, 541⟩, ⟨.p, w21, 541⟩, ⟨.id, w312, 541⟩, ⟨.p, w13, 541⟩, ⟨.id, w35, 541⟩, ⟨.p, w41, 541⟩,
   ⟨.id, w313, 541⟩, ⟨.id, w312, 542⟩, ⟨.p, w44, 542⟩, ⟨.p, w0, 542⟩, ⟨.id, w228, 542⟩, ⟨.p, w13, 542⟩,
   ⟨.id, w278, 542⟩, ⟨.p, w13, 542⟩, ⟨.id, w323, 542⟩, ⟨.p, w39, 542⟩, ⟨.life, w295, 542⟩, ⟨.p, w41, 542⟩,
   ⟨.p, w19, 543⟩, ⟨.id, w157, 544⟩, ⟨.id, w132, 544⟩, ⟨.id, w315, 544⟩, ⟨.p, w4, 544⟩, ⟨.p, w0, 544⟩,
   ⟨.id, w55, 544⟩, ⟨.p, w13, 544⟩, ⟨.id, w223, 544⟩, ⟨.p, w13, 544⟩, ⟨.p, w39, 544⟩, ⟨.p, w0, 544⟩, ⟨.id, w99, 544⟩,
   ⟨.p, w41, 544⟩, ⟨.p, w13, 544⟩, ⟨.id, w50, 544⟩, ⟨.p, w42, 544⟩, ⟨.p, w47, 544⟩, ⟨.p, w10, 544⟩, ⟨.id, w206, 545⟩,
   ⟨.id, w157, 545⟩, ⟨.p, w0, 545⟩, ⟨.id, w224, 545⟩, ⟨.p, w13, 545⟩, ⟨.id, w280, 545⟩, ⟨.p, w13, 545⟩,
   ⟨.id, w281, 545⟩, ⟨.p, w13, 545⟩, ⟨.id, w96, 545⟩, ⟨.p, w42, 545⟩, ⟨.p, w42, 545⟩, ⟨.id, w171, 545⟩,
   ⟨.p, w21, 545⟩, ⟨.id, w324, 545⟩, ⟨.p, w47, 545⟩, ⟨.p, w47, 545⟩, ⟨.p, w4, 545⟩, ⟨.id, w125, 546⟩,
   ⟨.p, w121, 546⟩, ⟨.id, w325, 546⟩, ⟨.p, w13, 546⟩, ⟨.p, w39, 546⟩, ⟨.p, w0, 546⟩, ⟨.id, w99, 546⟩, ⟨.p, w21, 546⟩,
   ⟨.id, w60, 546⟩, ⟨.p, w41, 546⟩, ⟨.p, w42, 546⟩, ⟨.p, w47, 546⟩, ⟨.p, w144, 546⟩, ⟨.p, w19, 547⟩,
   ⟨.id, w152, 548⟩, ⟨.id, w324, 548⟩, ⟨.p, w19, 548⟩, ⟨.id, w315, 549⟩, ⟨.p, w208, 549⟩, ⟨.id, w171, 549⟩,
   ⟨.p, w10, 549⟩, ⟨.p, w25, 550⟩, ⟨.p, w25, 551⟩, ⟨.p, w0, 552⟩, ⟨.id, w224, 552⟩, ⟨.p, w13, 552⟩, ⟨.id, w280, 552⟩,
   ⟨.p, w13, 552⟩, ⟨.id, w281, 552⟩, ⟨.p, w13, 552⟩, ⟨.id, w145, 552⟩, ⟨.p, w42, 552⟩, ⟨.id, w315, 552⟩,
   ⟨.p, w47, 552⟩, ⟨.p, w25, 553⟩, ⟨.p, w25, 554⟩, ⟨.id, w278, 555⟩, ⟨.p, w121, 555⟩, ⟨.id, w326, 555⟩,
   ⟨.p, w42, 555⟩, ⟨.id, w305, 555⟩, ⟨.p, w47, 555⟩, ⟨.p, w25, 556⟩, ⟨.p, w25, 557⟩, ⟨.p, w25, 558⟩, ⟨.id, w93, 559⟩,
   ⟨.p, w13, 559⟩, ⟨.id, w80, 559⟩, ⟨.p, w86, 559⟩, ⟨.p, w19, 559⟩, ⟨.id, w157, 560⟩, ⟨.id, w327, 560⟩,
   ⟨.p, w4, 560⟩, ⟨.id, w26, 560⟩, ⟨.p, w1, 560⟩, ⟨.p, w19, 560⟩, ⟨.p, w210, 561⟩, ⟨.p, w0, 561⟩, ⟨.id, w99, 561⟩,
   ⟨.id, w23, 561⟩, ⟨.p, w0, 561⟩, ⟨.id, w227, 561⟩, ⟨.p, w13, 561⟩, ⟨.id, w328, 561⟩, ⟨.p, w41, 561⟩,
   ⟨.p, w13, 561⟩, ⟨.id, w329, 561⟩, ⟨.id, w23, 561⟩, ⟨.p, w0, 561⟩, ⟨.id, w227, 561⟩, ⟨.p, w13, 561⟩,
   ⟨.id, w291, 561⟩, ⟨.p, w41, 561⟩, ⟨.p, w13, 562⟩, ⟨.id, w330, 562⟩, ⟨.p, w25, 563⟩, ⟨.p, w10, 563⟩,
   ⟨.id, w157, 564⟩, ⟨.p, w42, 564⟩, ⟨.id, w331, 564⟩, ⟨.p, w21, 564⟩, ⟨.id, w332, 564⟩, ⟨.p, w47, 564⟩,
   ⟨.p, w4, 564⟩, ⟨.id, w152, 564⟩, ⟨.id, w212, 564⟩, ⟨.p, w121, 564⟩, ⟨.id, w67, 564⟩, ⟨.p, w19, 564⟩,
   ⟨.p, w42, 565⟩, ⟨.id, w26, 566⟩, ⟨.p, w1, 566⟩, ⟨.p, w19, 566⟩, ⟨.id, w152, 567⟩, ⟨.id, w333, 567⟩,
   ⟨.p, w277, 567⟩, ⟨.int, w130, 567⟩, ⟨.p, w19, 567⟩, ⟨.id, w279, 568⟩, ⟨.p, w0, 568⟩, ⟨.id, w224, 568⟩,
   ⟨.p, w13, 568⟩, ⟨.id, w280, 568⟩, ⟨.p, w13, 568⟩, ⟨.id, w281, 568⟩, ⟨.p, w13, 568⟩, ⟨.id, w49, 568⟩,
   ⟨.p, w42, 568⟩, ⟨.id, w282, 569⟩, ⟨.p, w13, 569⟩, ⟨.id, w35, 569⟩, ⟨.p, w13, 569⟩, ⟨.id, w283, 569⟩,
   ⟨.p, w42, 569⟩, ⟨.str, w284, 569⟩, ⟨.p, w47, 569⟩, ⟨.p, w47, 570⟩, ⟨.p, w25, 571⟩, ⟨.p, w25, 572⟩, ⟨.p, w21, 572⟩,
   ⟨.id, w26, 573⟩, ⟨.p, w1, 573⟩, ⟨.p, w19, 573⟩, ⟨.id, w85, 574⟩, ⟨.p, w0, 574⟩, ⟨.id, w55, 574⟩, ⟨.p, w13, 574⟩,
   ⟨.id, w223, 574⟩, ⟨.p, w13, 574⟩, ⟨.p, w39, 574⟩, ⟨.p, w0, 574⟩, ⟨.id, w99, 574⟩, ⟨.p, w41, 574⟩, ⟨.p, w13, 574⟩,
   ⟨.id, w334, 574⟩, ⟨.p, w42, 574⟩, ⟨.id, w315, 574⟩, ⟨.p, w47, 574⟩, ⟨.p, w19, 574⟩, ⟨.id, w96, 575⟩,
   ⟨.p, w42, 575⟩, ⟨.id, w127, 575⟩, ⟨.p, w47, 575⟩, ⟨.p, w86, 575⟩, ⟨.id, w127, 575⟩, ⟨.p, w21, 575⟩,
   ⟨.id, w97, 576⟩, ⟨.p, w86, 576⟩, ⟨.p, w0, 576⟩, ⟨.id, w224, 576⟩, ⟨.p, w13, 576⟩, ⟨.id, w280, 576⟩,
   ⟨.p, w13, 576⟩, ⟨.id, w281, 576⟩, ⟨.p, w13, 576⟩, ⟨.id, w49, 576⟩, ⟨.p, w42, 576⟩, ⟨.id, w282, 577⟩,
   ⟨.p, w13, 577⟩, ⟨.id, w35, 577⟩, ⟨.p, w13, 577⟩, ⟨.id, w283, 577⟩, ⟨.p, w42, 577⟩, ⟨.str, w284, 577⟩,
   ⟨.p, w47, 577⟩, ⟨.p, w47, 578⟩, ⟨.p, w21, 578⟩, ⟨.p, w25, 579⟩, ⟨.p, w25, 580⟩, ⟨.p, w21, 580⟩, ⟨.p, w47, 581⟩,
   ⟨.p, w25, 582⟩, ⟨.id, w156, 582⟩, ⟨.p, w19, 582⟩, ⟨.p, w42, 583⟩, ⟨.id, w26, 583⟩, ⟨.p, w1, 583⟩, ⟨.p, w19, 583⟩,
   ⟨.p, w25, 583⟩, ⟨.p, w21, 583⟩, ⟨.id, w26, 583⟩, ⟨.p, w1, 583⟩, ⟨.p, w19, 583⟩, ⟨.p, w0, 584⟩, ⟨.id, w224, 584⟩,
   ⟨.p, w13, 584⟩, ⟨.id, w280, 584⟩, ⟨.p, w13, 584⟩, ⟨.id, w281, 584⟩, ⟨.p, w13, 584⟩, ⟨.id, w145, 584⟩,
   ⟨.p, w42, 584⟩, ⟨.p, w0, 584⟩, ⟨.id, w55, 584⟩, ⟨.p, w13, 584⟩, ⟨.id, w223, 584⟩, ⟨.p, w13, 584⟩, ⟨.p, w39, 584⟩,
   ⟨.p, w0, 584⟩, ⟨.id, w99, 584⟩, ⟨.p, w41, 584⟩, ⟨.p, w13, 584⟩, ⟨.id, w335, 584⟩, ⟨.p, w42, 584⟩,
   ⟨.id, w315, 584⟩, ⟨.p, w47, 584⟩, ⟨.p, w47, 584⟩, ⟨.p, w25, 585⟩, ⟨.p, w47, 585⟩, ⟨.p, w25, 586⟩, ⟨.p, w10, 586⟩,
   ⟨.id, w26, 587⟩, ⟨.p, w1, 587⟩, ⟨.p, w19, 587⟩, ⟨.id, w37, 588⟩, ⟨.id, w285, 588⟩, ⟨.p, w39, 588⟩,
   ⟨.id, w286, 588⟩, ⟨.p, w44, 588⟩, ⟨.p, w0, 588⟩, ⟨.id, w228, 588⟩, ⟨.p, w13, 588⟩, ⟨.id, w287, 588⟩,
   ⟨.p, w41, 588⟩, ⟨.p, w42, 588⟩, ⟨.id, w288, 589⟩, ⟨.p, w44, 589⟩, ⟨.p, w0, 589⟩, ⟨.id, w55, 589⟩, ⟨.p, w13, 589⟩,
   ⟨.id, w223, 589⟩, ⟨.p, w39, 589⟩, ⟨.p, w0, 589⟩, ⟨.id, w99, 589⟩, ⟨.p, w41, 589⟩, ⟨.p, w21, 589⟩,
   ⟨.id, w289, 589⟩, ⟨.p, w44, 589⟩, ⟨.id, w286, 589⟩, ⟨.p, w21, 589⟩, ⟨.p, w47, 590⟩, ⟨.p, w48, 590⟩, ⟨.p, w0, 590⟩,
   ⟨.id, w224, 590⟩, ⟨.p, w13, 590⟩, ⟨.id, w290, 590⟩, ⟨.p, w13, 590⟩, ⟨.id, w36, 590⟩, ⟨.p, w39, 590⟩,
   ⟨.id, w286, 590⟩, ⟨.p, w13, 590⟩, ⟨.id, w145, 590⟩, ⟨.p, w21, 590⟩, ⟨.id, w286, 590⟩, ⟨.p, w13, 590⟩,
   ⟨.id, w35, 590⟩, ⟨.p, w41, 590⟩, ⟨.p, w19, 590⟩, ⟨.id, w157, 592⟩, ⟨.id, w140, 592⟩, ⟨.p, w4, 592⟩,
   ⟨.id, w288, 592⟩, ⟨.p, w121, 592⟩, ⟨.id, w336, 592⟩, ⟨.p, w13, 592⟩, ⟨.p, w39, 592⟩, ⟨.p, w19, 592⟩,
   ⟨.p, w0, 592⟩, ⟨.id, w327, 592⟩, ⟨.p, w25, 592⟩, ⟨.p, w41, 592⟩, ⟨.p, w42, 592⟩, ⟨.p, w47, 592⟩, ⟨.p, w10, 592⟩,
   ⟨.id, w157, 595⟩, ⟨.id, w132, 595⟩, ⟨.id, w304, 595⟩, ⟨.p, w4, 595⟩, ⟨.id, w140, 595⟩, ⟨.p, w121, 595⟩,
   ⟨.id, w207, 595⟩, ⟨.p, w42, 595⟩, ⟨.p, w47, 595⟩, ⟨.p, w10, 595⟩, ⟨.id, w201, 596⟩, ⟨.id, w168, 596⟩,
   ⟨.id, w202, 596⟩, ⟨.p, w42, 596⟩, ⟨.int, w130, 596⟩, ⟨.p, w169, 596⟩, ⟨.id, w140, 596⟩, ⟨.p, w121, 596⟩,
   ⟨.id, w207, 596⟩, ⟨.p, w42, 596⟩, ⟨.p, w47, 596⟩, ⟨.p, w47, 596⟩, ⟨.p, w121, 596⟩, ⟨.id, w337, 596⟩,
   ⟨.p, w42, 596⟩, ⟨.p, w47, 596⟩, ⟨.p, w19, 596⟩, ⟨.id, w152, 597⟩, ⟨.id, w140, 597⟩, ⟨.p, w2, 597⟩,
   ⟨.id, w168, 597⟩, ⟨.p, w6, 597⟩, ⟨.p, w277, 597⟩, ⟨.int, w130, 597⟩, ⟨.p, w19, 597⟩, ⟨.id, w338, 598⟩,
   ⟨.p, w10, 598⟩, ⟨.p, w25, 599⟩, ⟨.id, w304, 600⟩, ⟨.p, w4, 600⟩, ⟨.id, w168, 600⟩, ⟨.p, w191, 600⟩,
   ⟨.int, w185, 600⟩, ⟨.p, w10, 600⟩, ⟨.p, w25, 601⟩, ⟨.p, w0, 604⟩, ⟨.id, w228, 604⟩, ⟨.p, w13, 604⟩,
   ⟨.id, w293, 604⟩, ⟨.p, w13, 604⟩, ⟨.id, w285, 604⟩, ⟨.p, w42, 604⟩, ⟨.p, w83, 604⟩, ⟨.id, w140, 604⟩,
   ⟨.p, w2, 604⟩, ⟨.p, w169, 604⟩, ⟨.id, w304, 604⟩, ⟨.p, w6, 604⟩, ⟨.p, w21, 604⟩, ⟨.id, w289, 604⟩, ⟨.p, w47, 604⟩,
   ⟨.p, w25, 605⟩, ⟨.id, w37, 606⟩, ⟨.id, w294, 606⟩, ⟨.p, w39, 606⟩, ⟨.life, w295, 606⟩, ⟨.p, w21, 606⟩,
   ⟨.id, w282, 606⟩, ⟨.p, w44, 606⟩, ⟨.p, w0, 606⟩, ⟨.id, w228, 606⟩, ⟨.p, w13, 606⟩, ⟨.id, w296, 606⟩,
   ⟨.p, w39, 606⟩, ⟨.life, w295, 606⟩, ⟨.p, w65, 606⟩, ⟨.p, w42, 606⟩, ⟨.id, w278, 607⟩, ⟨.p, w44, 607⟩,
   ⟨.id, w282, 607⟩, ⟨.p, w21, 607⟩, ⟨.p, w47, 608⟩, ⟨.p, w48, 608⟩, ⟨.p, w0, 608⟩, ⟨.id, w224, 608⟩, ⟨.p, w13, 608⟩,
   ⟨.id, w290, 608⟩, ⟨.p, w13, 608⟩, ⟨.id, w36, 608⟩, ⟨.p, w39, 608⟩, ⟨.p, w0, 608⟩, ⟨.id, w55, 608⟩, ⟨.p, w13, 608⟩,
   ⟨.id, w223, 608⟩, ⟨.p, w39, 608⟩, ⟨.p, w0, 608⟩, ⟨.id, w99, 608⟩, ⟨.p, w41, 608⟩, ⟨.p, w21, 608⟩,
   ⟨.id, w282, 608⟩, ⟨.p, w13, 608⟩, ⟨.id, w35, 608⟩, ⟨.p, w41, 608⟩, ⟨.p, w19, 608⟩, ⟨.id, w57, 609⟩,
   ⟨.id, w305, 609⟩, ⟨.p, w10, 609⟩, ⟨.id, w46, 610⟩, ⟨.p, w39, 610⟩, ⟨.life, w295, 610⟩, ⟨.p, w41, 610⟩,
   ⟨.p, w0, 610⟩, ⟨.id, w228, 610⟩, ⟨.p, w13, 610⟩, ⟨.id, w278, 610⟩, ⟨.p, w13, 610⟩, ⟨.id, w305, 610⟩,
   ⟨.p, w39, 610⟩, ⟨.life, w295, 610⟩, ⟨.p, w41, 610⟩, ⟨.id, w201, 610⟩, ⟨.id, w305, 610⟩, ⟨.p, w19, 610⟩,
   ⟨.id, w241, 611⟩, ⟨.id, w306, 611⟩, ⟨.p, w4, 611⟩, ⟨.p, w0, 611⟩, ⟨.id, w55, 611⟩, ⟨.p, w13, 611⟩,
   ⟨.id, w223, 611⟩, ⟨.p, w39, 611⟩, ⟨.p, w0, 611⟩, ⟨.id, w99, 611⟩, ⟨.p, w41, 611⟩, ⟨.p, w10, 611⟩, ⟨.id, w37, 612⟩,
   ⟨.id, w307, 612⟩, ⟨.p, w42, 612⟩, ⟨.p, w83, 613⟩, ⟨.id, w84, 613⟩, ⟨.p, w21, 613⟩, ⟨.id, w308, 613⟩,
   ⟨.p, w44, 613⟩, ⟨.p, w83, 613⟩, ⟨.id, w132, 613⟩, ⟨.p, w0, 613⟩, ⟨.id, w224, 613⟩, ⟨.p, w13, 613⟩,
   ⟨.id, w30, 613⟩, ⟨.p, w13, 613⟩, ⟨.id, w309, 613⟩, ⟨.p, w21, 613⟩, ⟨.p, w47, 614⟩, ⟨.p, w48, 614⟩, ⟨.p, w0, 614⟩,
   ⟨.id, w224, 614⟩, ⟨.p, w13, 614⟩, ⟨.id, w30, 614⟩, ⟨.p, w13, 614⟩, ⟨.id, w36, 614⟩, ⟨.p, w19, 614⟩,
   ⟨.id, w310, 615⟩, ⟨.p, w1, 615⟩, ⟨.p, w42, 615⟩, ⟨.id, w308, 615⟩, ⟨.p, w21, 615⟩, ⟨.str, w339, 615⟩,
   ⟨.p, w47, 615⟩, ⟨.p, w25, 616⟩, ⟨.id, w37, 617⟩, ⟨.id, w311, 617⟩, ⟨.p, w39, 617⟩, ⟨.id, w312, 617⟩,
   ⟨.p, w41, 617⟩, ⟨.p, w42, 617⟩, ⟨.id, w132, 618⟩, ⟨.id, w84, 618⟩, ⟨.p, w21, 618⟩, ⟨.id, w132, 618⟩,
   ⟨.id, w301, 618⟩, ⟨.p, w44, 618⟩, ⟨.id, w312, 618⟩, ⟨.p, w21, 618⟩, ⟨.p, w47, 619⟩, ⟨.p, w48, 619⟩, ⟨.p, w0, 619⟩,
   ⟨.id, w224, 619⟩, ⟨.p, w13, 619⟩, ⟨.id, w290, 619⟩, ⟨.p, w13, 619⟩, ⟨.id, w36, 619⟩, ⟨.p, w39, 619⟩,
   ⟨.id, w245, 619⟩, ⟨.p, w13, 619⟩, ⟨.id, w306, 619⟩, ⟨.p, w21, 619⟩, ⟨.id, w312, 619⟩, ⟨.p, w13, 619⟩,
   ⟨.id, w35, 619⟩, ⟨.p, w41, 619⟩, ⟨.id, w313, 619⟩, ⟨.id, w312, 620⟩, ⟨.p, w44, 620⟩, ⟨.p, w0, 620⟩,
   ⟨.id, w228, 620⟩, ⟨.p, w13, 620⟩, ⟨.id, w278, 620⟩, ⟨.p, w13, 620⟩, ⟨.id, w314, 620⟩, ⟨.p, w39, 620⟩,
   ⟨.life, w295, 620⟩, ⟨.p, w41, 620⟩, ⟨.p, w19, 621⟩, ⟨.id, w157, 622⟩, ⟨.id, w132, 622⟩, ⟨.id, w315, 622⟩,
   ⟨.p, w4, 622⟩, ⟨.p, w2, 622⟩, ⟨.int, w130, 622⟩, ⟨.p, w10, 622⟩, ⟨.p, w0, 622⟩, ⟨.id, w327, 622⟩, ⟨.p, w6, 622⟩,
   ⟨.p, w10, 622⟩, ⟨.id, w157, 624⟩, ⟨.id, w132, 624⟩, ⟨.id, w168, 624⟩, ⟨.p, w4, 624⟩, ⟨.int, w130, 624⟩,
   ⟨.p, w10, 624⟩, ⟨.id, w206, 625⟩, ⟨.id, w157, 625⟩, ⟨.p, w0, 625⟩, ⟨.id, w224, 625⟩, ⟨.p, w13, 625⟩,
   ⟨.id, w280, 625⟩, ⟨.p, w13, 625⟩, ⟨.id, w281, 625⟩, ⟨.p, w13, 625⟩, ⟨.id, w96, 625⟩, ⟨.p, w42, 625⟩,
   ⟨.id, w171, 625⟩, ⟨.p, w47, 625⟩, ⟨.p, w4, 625⟩, ⟨.id, w301, 625⟩, ⟨.p, w121, 625⟩, ⟨.id, w316, 625⟩,
   ⟨.p, w13, 625⟩, ⟨.p, w39, 625⟩, ⟨.id, w137, 625⟩, ⟨.p, w41, 625⟩, ⟨.p, w42, 625⟩, ⟨.p, w47, 625⟩, ⟨.p, w144, 625⟩,
   ⟨.p, w19, 625⟩, ⟨.id, w315, 626⟩, ⟨.p, w2, 626⟩, ⟨.id, w168, 626⟩, ⟨.p, w6, 626⟩, ⟨.p, w4, 626⟩, ⟨.id, w171, 626⟩,
   ⟨.p, w10, 626⟩, ⟨.id, w168, 627⟩, ⟨.p, w184, 627⟩, ⟨.int, w185, 627⟩, ⟨.p, w10, 627⟩, ⟨.id, w152, 629⟩,
   ⟨.id, w168, 629⟩, ⟨.p, w260, 629⟩, ⟨.id, w315, 629⟩, ⟨.p, w121, 629⟩, ⟨.id, w207, 629⟩, ⟨.p, w42, 629⟩,
   ⟨.p, w47, 629⟩, ⟨.p, w19, 629⟩, ⟨.id, w338, 630⟩, ⟨.p, w10, 630⟩, ⟨.p, w25, 631⟩, ⟨.p, w25, 632⟩,
   ⟨.id, w206, 633⟩, ⟨.id, w157, 633⟩, ⟨.p, w0, 633⟩, ⟨.id, w224, 633⟩, ⟨.p, w13, 633⟩, ⟨.id, w280, 633⟩,
   ⟨.p, w13, 633⟩, ⟨.id, w281, 633⟩, ⟨.p, w13, 633⟩, ⟨.id, w96, 633⟩, ⟨.p, w42, 633⟩, ⟨.id, w333, 633⟩,
   ⟨.p, w47, 633⟩, ⟨.p, w4, 633⟩, ⟨.id, w301, 633⟩, ⟨.p, w121, 633⟩, ⟨.id, w316, 633⟩, ⟨.p, w13, 633⟩,
   ⟨.p, w39, 633⟩, ⟨.id, w137, 633⟩, ⟨.p, w41, 633⟩, ⟨.p, w42, 633⟩, ⟨.p, w47, 633⟩, ⟨.p, w144, 633⟩, ⟨.p, w19, 633⟩,
   ⟨.p, w0, 634⟩, ⟨.id, w331, 634⟩, ⟨.p, w25, 635⟩, ⟨.p, w0, 637⟩, ⟨.id, w332, 637⟩, ⟨.p, w25, 638⟩, ⟨.p, w25, 639⟩,
   ⟨.id, w278, 640⟩, ⟨.p, w121, 640⟩, ⟨.id, w317, 640⟩, ⟨.p, w42, 640⟩, ⟨.id, w305, 640⟩, ⟨.p, w47, 640⟩,
   ⟨.p, w25, 641⟩, ⟨.p, w25, 642⟩, ⟨.p, w25, 643⟩, ⟨.p, w25, 644⟩, ⟨.p, w10, 644⟩, ⟨.p, w0, 646⟩, ⟨.p, w2, 646⟩,
   ⟨.id, w215, 646⟩, ⟨.p, w42, 646⟩, ⟨.id, w221, 646⟩, ⟨.p, w42, 646⟩, ⟨.id, w216, 646⟩, ⟨.p, w4, 646⟩,
   ⟨.str, w228, 646⟩, ⟨.p, w47, 646⟩, ⟨.p, w47, 646⟩, ⟨.p, w6, 646⟩, ⟨.id, w157, 647⟩, ⟨.id, w261, 647⟩,
   ⟨.p, w4, 647⟩, ⟨.id, w26, 647⟩, ⟨.p, w1, 647⟩, ⟨.p, w19, 647⟩, ⟨.p, w25, 647⟩, ⟨.p, w10, 647⟩, ⟨.id, w157, 649⟩,
   ⟨.id, w340, 649⟩, ⟨.p, w4, 649⟩, ⟨.id, w212, 649⟩, ⟨.p, w121, 649⟩, ⟨.id, w109, 649⟩, ⟨.p, w121, 649⟩,
   ⟨.id, w341, 649⟩, ⟨.p, w42, 649⟩, ⟨.p, w47, 649⟩, ⟨.p, w10, 649⟩, ⟨.id, w157, 650⟩, ⟨.id, w342, 650⟩,
   ⟨.p, w4, 650⟩, ⟨.id, w212, 650⟩, ⟨.p, w121, 650⟩, ⟨.id, w109, 650⟩, ⟨.p, w121, 650⟩, ⟨.id, w207, 650⟩,
   ⟨.p, w42, 650⟩, ⟨.p, w47, 650⟩, ⟨.p, w260, 650⟩, ⟨.int, w185, 650⟩, ⟨.p, w10, 650⟩, ⟨.id, w157, 651⟩,
   ⟨.id, w343, 651⟩, ⟨.p, w4, 651⟩, ⟨.id, w152, 651⟩, ⟨.id, w340, 651⟩, ⟨.p, w19, 651⟩, ⟨.id, w26, 652⟩,
   ⟨.p, w1, 652⟩, ⟨.p, w19, 652⟩, ⟨.id, w37, 653⟩, ⟨.id, w344, 653⟩, ⟨.p, w42, 653⟩, ⟨.id, w84, 653⟩, ⟨.p, w47, 653⟩,
   ⟨.p, w48, 653⟩, ⟨.id, w102, 653⟩, ⟨.p, w19, 653⟩, ⟨.id, w345, 654⟩, ⟨.p, w1, 654⟩, ⟨.p, w42, 654⟩,
   ⟨.id, w346, 654⟩, ⟨.p, w1, 654⟩, ⟨.p, w42, 654⟩, ⟨.id, w347, 654⟩, ⟨.p, w1, 654⟩, ⟨.p, w42, 654⟩, ⟨.p, w0, 654⟩,
   ⟨.id, w99, 654⟩, ⟨.p, w47, 654⟩, ⟨.p, w21, 654⟩, ⟨.str, w348, 654⟩, ⟨.p, w47, 654⟩, ⟨.p, w47, 654⟩,
   ⟨.p, w25, 655⟩, ⟨.id, w349, 656⟩, ⟨.id, w37, 656⟩, ⟨.id, w350, 656⟩, ⟨.p, w42, 656⟩, ⟨.id, w171, 656⟩,
   ⟨.p, w44, 656⟩, ⟨.id, w102, 656⟩, ⟨.p, w47, 656⟩, ⟨.p, w48, 656⟩, ⟨.id, w245, 656⟩, ⟨.p, w19, 656⟩,
   ⟨.id, w345, 657⟩, ⟨.p, w1, 657⟩, ⟨.p, w42, 657⟩, ⟨.id, w346, 657⟩, ⟨.p, w1, 657⟩, ⟨.p, w42, 657⟩,
   ⟨.id, w347, 657⟩, ⟨.p, w1, 657⟩, ⟨.p, w42, 657⟩, ⟨.p, w0, 657⟩, ⟨.id, w99, 657⟩, ⟨.p, w47, 657⟩, ⟨.p, w21, 657⟩,
   ⟨.str, w348, 657⟩, ⟨.p, w47, 657⟩, ⟨.p, w47, 657⟩, ⟨.p, w25, 658⟩, ⟨.p, w25, 659⟩, ⟨.p, w25, 660⟩,
   ⟨.id, w156, 660⟩, ⟨.id, w152, 660⟩, ⟨.id, w342, 660⟩, ⟨.p, w19, 660⟩, ⟨.id, w157, 661⟩, ⟨.id, w150, 661⟩,
   ⟨.p, w4, 661⟩, ⟨.p, w83, 661⟩, ⟨.id, w212, 661⟩, ⟨.p, w121, 661⟩, ⟨.id, w109, 661⟩, ⟨.p, w2, 661⟩,
   ⟨.int, w130, 661⟩, ⟨.p, w6, 661⟩, ⟨.p, w121, 661⟩, ⟨.id, w99, 661⟩, ⟨.p, w10, 661⟩, ⟨.id, w26, 662⟩,
   ⟨.p, w1, 662⟩, ⟨.p, w19, 662⟩, ⟨.id, w37, 663⟩, ⟨.id, w344, 663⟩, ⟨.p, w42, 663⟩, ⟨.id, w84, 663⟩, ⟨.p, w47, 663⟩,
   ⟨.p, w48, 663⟩, ⟨.id, w102, 663⟩, ⟨.p, w19, 663⟩, ⟨.id, w84, 664⟩, ⟨.id, w23, 664⟩, ⟨.id, w102, 664⟩,
   ⟨.p, w25, 665⟩, ⟨.id, w349, 666⟩, ⟨.id, w37, 666⟩, ⟨.id, w350, 666⟩, ⟨.p, w42, 666⟩, ⟨.id, w171, 666⟩,
   ⟨.p, w44, 666⟩, ⟨.id, w102, 666⟩, ⟨.p, w47, 666⟩, ⟨.p, w48, 666⟩, ⟨.id, w245, 666⟩, ⟨.p, w19, 666⟩, ⟨.p, w0, 667⟩,
   ⟨.id, w99, 667⟩, ⟨.p, w13, 667⟩, ⟨.p, w0, 667⟩, ⟨.id, w150, 667⟩, ⟨.p, w25, 668⟩, ⟨.p, w25, 669⟩, ⟨.p, w25, 670⟩,
   ⟨.id, w156, 670⟩, ⟨.p, w19, 670⟩, ⟨.id, w157, 671⟩, ⟨.id, w351, 671⟩, ⟨.p, w44, 671⟩, ⟨.id, w110, 671⟩,
   ⟨.p, w39, 671⟩, ⟨.id, w141, 671⟩, ⟨.p, w41, 671⟩, ⟨.p, w4, 671⟩, ⟨.id, w212, 671⟩, ⟨.p, w121, 671⟩,
   ⟨.id, w109, 671⟩, ⟨.p, w121, 671⟩, ⟨.id, w352, 671⟩, ⟨.p, w42, 671⟩, ⟨.p, w47, 671⟩, ⟨.p, w121, 671⟩,
   ⟨.id, w125, 671⟩, ⟨.p, w42, 671⟩, ⟨.p, w126, 671⟩, ⟨.id, w127, 671⟩, ⟨.p, w126, 671⟩, ⟨.p, w83, 671⟩,
   ⟨.id, w127, 671⟩, ⟨.p, w121, 671⟩, ⟨.id, w99, 671⟩, ⟨.p, w47, 671⟩, ⟨.p, w121, 671⟩, ⟨.id, w353, 671⟩,
   ⟨.p, w42, 671⟩, ⟨.p, w47, 671⟩, ⟨.p, w10, 671⟩, ⟨.id, w157, 672⟩, ⟨.id, w354, 672⟩, ⟨.p, w44, 672⟩,
   ⟨.id, w110, 672⟩, ⟨.p, w39, 672⟩, ⟨.id, w141, 672⟩, ⟨.p, w41, 672⟩, ⟨.p, w4, 672⟩, ⟨.id, w212, 672⟩,
   ⟨.p, w121, 672⟩, ⟨.id, w109, 672⟩, ⟨.p, w121, 672⟩, ⟨.id, w352, 672⟩, ⟨.p, w42, 672⟩, ⟨.p, w47, 672⟩,
   ⟨.p, w121, 672⟩, ⟨.id, w125, 672⟩, ⟨.p, w42, 672⟩, ⟨.p, w126, 672⟩, ⟨.id, w127, 672⟩, ⟨.p, w126, 672⟩,
   ⟨.id, w127, 672⟩, ⟨.p, w121, 672⟩, ⟨.id, w101, 672⟩, ⟨.p, w47, 672⟩, ⟨.p, w121, 672⟩, ⟨.id, w353, 672⟩,
   ⟨.p, w42, 672⟩, ⟨.p, w47, 672⟩, ⟨.p, w10, 672⟩, ⟨.id, w157, 674⟩, ⟨.id, w355, 674⟩, ⟨.p, w44, 674⟩,
   ⟨.id, w110, 674⟩, ⟨.p, w39, 674⟩, ⟨.id, w141, 674⟩, ⟨.p, w41, 674⟩, ⟨.p, w4, 674⟩, ⟨.p, w2, 674⟩,
   ⟨.str, w356, 674⟩, ⟨.p, w21, 674⟩, ⟨.str, w357, 674⟩, ⟨.p, w21, 674⟩, ⟨.str, w358, 674⟩, ⟨.p, w21, 674⟩,
   ⟨.str, w359, 674⟩, ⟨.p, w21, 674⟩, ⟨.str, w360, 674⟩, ⟨.p, w6, 674⟩, ⟨.p, w121, 675⟩, ⟨.id, w352, 675⟩,
   ⟨.p, w42, 675⟩, ⟨.p, w47, 675⟩, ⟨.p, w121, 676⟩, ⟨.id, w125, 676⟩, ⟨.p, w42, 676⟩, ⟨.p, w126, 676⟩,
   ⟨.id, w127, 676⟩, ⟨.p, w126, 676⟩, ⟨.id, w100, 676⟩, ⟨.p, w13, 676⟩, ⟨.id, w50, 676⟩, ⟨.p, w42, 676⟩,
   ⟨.id, w127, 676⟩, ⟨.p, w21, 676⟩, ⟨.id, w22, 676⟩, ⟨.p, w13, 676⟩, ⟨.id, w128, 676⟩, ⟨.p, w42, 676⟩,
   ⟨.p, w47, 676⟩, ⟨.p, w47, 676⟩, ⟨.p, w47, 676⟩, ⟨.p, w121, 677⟩, ⟨.id, w353, 677⟩, ⟨.p, w42, 677⟩, ⟨.p, w47, 677⟩,
   ⟨.p, w10, 677⟩, ⟨.id, w157, 678⟩, ⟨.id, w361, 678⟩, ⟨.p, w44, 678⟩, ⟨.id, w110, 678⟩, ⟨.p, w39, 678⟩,
   ⟨.id, w141, 678⟩, ⟨.p, w41, 678⟩, ⟨.p, w4, 678⟩, ⟨.p, w2, 678⟩, ⟨.str, w135, 678⟩, ⟨.p, w21, 678⟩,
   ⟨.str, w136, 678⟩, ⟨.p, w21, 678⟩, ⟨.str, w102, 678⟩, ⟨.p, w21, 678⟩, ⟨.str, w137, 678⟩, ⟨.p, w21, 678⟩,
   ⟨.str, w138, 678⟩, ⟨.p, w6, 678⟩, ⟨.p, w121, 679⟩, ⟨.id, w352, 679⟩, ⟨.p, w42, 679⟩, ⟨.p, w47, 679⟩,
   ⟨.p, w121, 680⟩, ⟨.id, w125, 680⟩, ⟨.p, w42, 680⟩, ⟨.p, w126, 680⟩, ⟨.id, w127, 680⟩, ⟨.p, w126, 680⟩,
   ⟨.id, w100, 680⟩, ⟨.p, w13, 680⟩, ⟨.id, w50, 680⟩, ⟨.p, w42, 680⟩, ⟨.id, w127, 680⟩, ⟨.p, w21, 680⟩,
   ⟨.id, w22, 680⟩, ⟨.p, w13, 680⟩, ⟨.id, w128, 680⟩, ⟨.p, w42, 680⟩, ⟨.p, w47, 680⟩, ⟨.p, w47, 680⟩, ⟨.p, w47, 680⟩,
   ⟨.p, w121, 681⟩, ⟨.id, w353, 681⟩, ⟨.p, w42, 681⟩, ⟨.p, w47, 681⟩, ⟨.p, w10, 681⟩, ⟨.id, w26, 683⟩, ⟨.p, w1, 683⟩,
   ⟨.p, w19, 683⟩, ⟨.id, w37, 684⟩, ⟨.id, w344, 684⟩, ⟨.p, w42, 684⟩, ⟨.id, w84, 684⟩, ⟨.p, w47, 684⟩,
   ⟨.p, w48, 684⟩, ⟨.id, w102, 684⟩, ⟨.p, w19, 684⟩, ⟨.id, w84, 685⟩, ⟨.id, w23, 685⟩, ⟨.id, w102, 685⟩,
   ⟨.p, w25, 686⟩, ⟨.id, w349, 687⟩, ⟨.id, w37, 687⟩, ⟨.id, w350, 687⟩, ⟨.p, w42, 687⟩, ⟨.id, w171, 687⟩,
   ⟨.p, w44, 687⟩, ⟨.id, w102, 687⟩, ⟨.p, w47, 687⟩, ⟨.p, w48, 687⟩, ⟨.id, w245, 687⟩, ⟨.p, w19, 687⟩, ⟨.p, w0, 690⟩,
   ⟨.p, w42, 690⟩, ⟨.id, w362, 690⟩, ⟨.p, w0, 690⟩, ⟨.id, w355, 690⟩, ⟨.p, w44, 690⟩, ⟨.id, w60, 690⟩, ⟨.p, w4, 690⟩,
   ⟨.p, w0, 691⟩, ⟨.id, w224, 691⟩, ⟨.p, w13, 691⟩, ⟨.id, w363, 691⟩, ⟨.p, w13, 691⟩, ⟨.id, w364, 691⟩,
   ⟨.p, w13, 691⟩, ⟨.p, w39, 691⟩, ⟨.p, w0, 691⟩, ⟨.id, w99, 691⟩, ⟨.p, w41, 691⟩, ⟨.p, w42, 691⟩, ⟨.p, w47, 691⟩,
   ⟨.p, w260, 691⟩, ⟨.p, w0, 691⟩, ⟨.id, w224, 691⟩, ⟨.p, w13, 691⟩, ⟨.id, w363, 691⟩, ⟨.p, w13, 691⟩,
   ⟨.id, w364, 691⟩, ⟨.p, w13, 691⟩, ⟨.p, w39, 691⟩, ⟨.p, w0, 691⟩, ⟨.id, w361, 691⟩, ⟨.p, w41, 691⟩, ⟨.p, w42, 691⟩,
   ⟨.p, w47, 691⟩, ⟨.p, w10, 691⟩, ⟨.p, w47, 691⟩, ⟨.p, w16, 691⟩, ⟨.id, w85, 692⟩, ⟨.id, w171, 692⟩, ⟨.p, w19, 692⟩,
   ⟨.p, w0, 696⟩, ⟨.p, w42, 696⟩, ⟨.p, w0, 696⟩, ⟨.id, w354, 696⟩, ⟨.p, w86, 696⟩, ⟨.p, w0, 696⟩, ⟨.id, w99, 696⟩,
   ⟨.p, w13, 696⟩, ⟨.p, w0, 696⟩, ⟨.id, w351, 696⟩, ⟨.p, w21, 696⟩, ⟨.p, w47, 696⟩, ⟨.p, w16, 696⟩, ⟨.p, w0, 699⟩,
   ⟨.p, w42, 699⟩, ⟨.id, w127, 699⟩, ⟨.id, w152, 699⟩, ⟨.p, w0, 699⟩, ⟨.id, w355, 699⟩, ⟨.p, w86, 699⟩,
   ⟨.p, w19, 699⟩, ⟨.id, w157, 700⟩, ⟨.id, w127, 700⟩, ⟨.p, w4, 700⟩, ⟨.id, w127, 700⟩, ⟨.id, w23, 700⟩,
   ⟨.p, w0, 700⟩, ⟨.id, w361, 700⟩, ⟨.p, w10, 700⟩, ⟨.p, w16, 701⟩, ⟨.p, w42, 701⟩, ⟨.p, w83, 701⟩, ⟨.id, w127, 701⟩,
   ⟨.id, w23, 701⟩, ⟨.p, w16, 701⟩, ⟨.id, w362, 701⟩, ⟨.id, w141, 701⟩, ⟨.id, w23, 701⟩, ⟨.p, w16, 701⟩,
   ⟨.id, w362, 701⟩, ⟨.p, w0, 701⟩, ⟨.id, w99, 701⟩, ⟨.p, w47, 701⟩, ⟨.p, w25, 702⟩, ⟨.p, w47, 702⟩, ⟨.p, w16, 702⟩,
   ⟨.id, w141, 705⟩, ⟨.p, w86, 705⟩, ⟨.p, w0, 705⟩, ⟨.id, w224, 705⟩, ⟨.p, w13, 705⟩, ⟨.id, w365, 705⟩,
   ⟨.p, w13, 705⟩, ⟨.id, w366, 705⟩, ⟨.p, w42, 705⟩, ⟨.p, w47, 705⟩, ⟨.p, w21, 705⟩, ⟨.p, w25, 706⟩, ⟨.p, w25, 707⟩,
   ⟨.p, w25, 708⟩, ⟨.p, w25, 709⟩, ⟨.p, w10, 709⟩, ⟨.id, w157, 711⟩, ⟨.id, w367, 711⟩, ⟨.p, w4, 711⟩,
   ⟨.id, w152, 711⟩, ⟨.id, w340, 711⟩, ⟨.p, w19, 711⟩, ⟨.id, w26, 712⟩, ⟨.p, w1, 712⟩, ⟨.p, w42, 712⟩,
   ⟨.id, w345, 712⟩, ⟨.p, w1, 712⟩, ⟨.p, w42, 712⟩, ⟨.id, w346, 712⟩, ⟨.p, w1, 712⟩, ⟨.p, w42, 712⟩,
   ⟨.id, w347, 712⟩, ⟨.p, w1, 712⟩, ⟨.p, w42, 712⟩, ⟨.p, w0, 712⟩, ⟨.id, w99, 712⟩, ⟨.p, w47, 712⟩, ⟨.p, w21, 712⟩,
   ⟨.str, w348, 712⟩, ⟨.p, w47, 712⟩, ⟨.p, w47, 712⟩, ⟨.p, w47, 712⟩, ⟨.p, w25, 713⟩, ⟨.id, w156, 713⟩,
   ⟨.p, w19, 713⟩, ⟨.id, w26, 714⟩, ⟨.p, w1, 714⟩, ⟨.p, w42, 714⟩, ⟨.p, w42, 714⟩, ⟨.p, w16, 714⟩, ⟨.id, w84, 714⟩,
   ⟨.id, w23, 714⟩, ⟨.id, w102, 714⟩, ⟨.p, w47, 714⟩, ⟨.p, w260, 714⟩, ⟨.p, w42, 714⟩, ⟨.p, w16, 714⟩,
   ⟨.id, w244, 714⟩, ⟨.id, w23, 714⟩, ⟨.id, w102, 714⟩, ⟨.p, w47, 714⟩, ⟨.p, w47, 714⟩, ⟨.p, w25, 715⟩,
   ⟨.p, w10, 715⟩, ⟨.id, w157, 717⟩, ⟨.id, w368, 717⟩, ⟨.p, w4, 717⟩, ⟨.id, w152, 717⟩, ⟨.id, w212, 717⟩,
   ⟨.p, w121, 717⟩, ⟨.id, w61, 717⟩, ⟨.p, w19, 717⟩, ⟨.id, w26, 718⟩, ⟨.p, w1, 718⟩, ⟨.p, w19, 718⟩, ⟨.p, w25, 718⟩,
   ⟨.p, w25, 719⟩, ⟨.id, w156, 719⟩, ⟨.p, w19, 719⟩, ⟨.id, w26, 720⟩, ⟨.p, w1, 720⟩, ⟨.p, w19, 720⟩, ⟨.p, w0, 721⟩,
   ⟨.p, w2, 721⟩, ⟨.id, w237, 721⟩, ⟨.p, w6, 721⟩, ⟨.id, w46, 722⟩, ⟨.p, w0, 722⟩, ⟨.id, w224, 722⟩, ⟨.p, w13, 722⟩,
   ⟨.id, w257, 722⟩, ⟨.p, w13, 722⟩, ⟨.id, w258, 722⟩, ⟨.id, w201, 722⟩, ⟨.p, w0, 722⟩, ⟨.id, w99, 722⟩,
   ⟨.p, w19, 722⟩, ⟨.id, w37, 723⟩, ⟨.id, w259, 723⟩, ⟨.p, w42, 723⟩, ⟨.p, w83, 723⟩, ⟨.id, w84, 723⟩,
   ⟨.p, w21, 723⟩, ⟨.id, w244, 723⟩, ⟨.p, w44, 723⟩, ⟨.p, w83, 723⟩, ⟨.id, w245, 723⟩, ⟨.p, w47, 723⟩,
   ⟨.p, w48, 723⟩, ⟨.id, w60, 723⟩, ⟨.p, w19, 723⟩, ⟨.p, w0, 724⟩, ⟨.id, w367, 724⟩, ⟨.p, w25, 725⟩, ⟨.p, w25, 726⟩,
   ⟨.p, w0, 727⟩, ⟨.p, w2, 727⟩, ⟨.id, w237, 727⟩, ⟨.p, w6, 727⟩, ⟨.id, w46, 728⟩, ⟨.p, w0, 728⟩, ⟨.id, w224, 728⟩,
   ⟨.p, w13, 728⟩, ⟨.id, w257, 728⟩, ⟨.p, w13, 728⟩, ⟨.id, w369, 728⟩, ⟨.id, w201, 728⟩, ⟨.p, w0, 728⟩,
   ⟨.id, w99, 728⟩, ⟨.p, w19, 728⟩, ⟨.p, w25, 728⟩, ⟨.p, w0, 729⟩, ⟨.p, w2, 729⟩, ⟨.id, w237, 729⟩, ⟨.p, w6, 729⟩,
   ⟨.p, w0, 730⟩, ⟨.p, w2, 730⟩, ⟨.id, w103, 730⟩, ⟨.p, w42, 730⟩, ⟨.id, w370, 730⟩, ⟨.p, w13, 730⟩,
   ⟨.id, w371, 730⟩, ⟨.p, w47, 730⟩, ⟨.p, w6, 730⟩, ⟨.id, w46, 731⟩, ⟨.p, w0, 731⟩, ⟨.id, w224, 731⟩, ⟨.p, w13, 731⟩,
   ⟨.id, w123, 731⟩, ⟨.p, w13, 731⟩, ⟨.id, w72, 731⟩, ⟨.id, w201, 731⟩, ⟨.p, w0, 731⟩, ⟨.id, w99, 731⟩,
   ⟨.p, w19, 731⟩, ⟨.id, w37, 732⟩, ⟨.id, w123, 732⟩, ⟨.p, w42, 732⟩, ⟨.p, w83, 732⟩, ⟨.id, w84, 732⟩,
   ⟨.p, w47, 732⟩, ⟨.p, w48, 732⟩, ⟨.id, w245, 732⟩, ⟨.p, w19, 732⟩, ⟨.p, w16, 733⟩, ⟨.id, w84, 733⟩, ⟨.p, w25, 734⟩,
   ⟨.p, w25, 735⟩, ⟨.p, w0, 736⟩, ⟨.p, w2, 736⟩, ⟨.id, w237, 736⟩, ⟨.p, w6, 736⟩, ⟨.id, w46, 737⟩, ⟨.p, w0, 737⟩,
   ⟨.id, w224, 737⟩, ⟨.p, w13, 737⟩, ⟨.id, w372, 737⟩, ⟨.p, w13, 737⟩, ⟨.id, w71, 737⟩, ⟨.id, w201, 737⟩,
   ⟨.p, w0, 737⟩, ⟨.id, w99, 737⟩, ⟨.p, w19, 737⟩, ⟨.p, w25, 737⟩, ⟨.p, w25, 738⟩, ⟨.p, w25, 739⟩, ⟨.p, w10, 739⟩,
   ⟨.id, w157, 741⟩, ⟨.id, w373, 741⟩, ⟨.p, w4, 741⟩, ⟨.id, w152, 741⟩, ⟨.id, w212, 741⟩, ⟨.p, w121, 741⟩,
   ⟨.id, w106, 741⟩, ⟨.p, w121, 741⟩, ⟨.id, w374, 741⟩, ⟨.p, w42, 741⟩, ⟨.p, w47, 741⟩, ⟨.p, w19, 741⟩,
   ⟨.id, w26, 742⟩, ⟨.p, w1, 742⟩, ⟨.p, w19, 742⟩, ⟨.p, w0, 743⟩, ⟨.p, w2, 743⟩, ⟨.id, w237, 743⟩, ⟨.p, w6, 743⟩,
   ⟨.id, w349, 744⟩, ⟨.id, w46, 744⟩, ⟨.p, w0, 744⟩, ⟨.id, w55, 744⟩, ⟨.p, w13, 744⟩, ⟨.id, w375, 744⟩,
   ⟨.id, w201, 744⟩, ⟨.p, w0, 744⟩, ⟨.id, w99, 744⟩, ⟨.p, w19, 744⟩, ⟨.id, w241, 745⟩, ⟨.id, w329, 745⟩,
   ⟨.p, w4, 745⟩, ⟨.p, w0, 745⟩, ⟨.id, w62, 745⟩, ⟨.p, w10, 745⟩, ⟨.p, w25, 746⟩, ⟨.p, w25, 747⟩, ⟨.p, w25, 748⟩,
   ⟨.id, w156, 748⟩, ⟨.p, w19, 748⟩, ⟨.id, w26, 749⟩, ⟨.p, w1, 749⟩, ⟨.p, w19, 749⟩, ⟨.p, w25, 749⟩, ⟨.p, w25, 750⟩,
   ⟨.p, w10, 750⟩, ⟨.id, w157, 752⟩, ⟨.id, w376, 752⟩, ⟨.p, w4, 752⟩, ⟨.id, w85, 752⟩, ⟨.id, w212, 752⟩,
   ⟨.p, w121, 752⟩, ⟨.id, w189, 752⟩, ⟨.p, w42, 752⟩, ⟨.p, w47, 752⟩, ⟨.p, w19, 752⟩, ⟨.id, w74, 753⟩,
   ⟨.p, w13, 753⟩, ⟨.id, w75, 753⟩, ⟨.p, w126, 754⟩, ⟨.id, w74, 754⟩, ⟨.p, w13, 754⟩, ⟨.id, w76, 754⟩,
   ⟨.p, w126, 755⟩, ⟨.id, w74, 755⟩, ⟨.p, w13, 755⟩, ⟨.id, w77, 755⟩, ⟨.p, w126, 756⟩, ⟨.id, w74, 756⟩,
   ⟨.p, w13, 756⟩, ⟨.id, w78, 756⟩, ⟨.p, w126, 757⟩, ⟨.id, w74, 757⟩, ⟨.p, w13, 757⟩, ⟨.id, w79, 757⟩,
   ⟨.p, w86, 757⟩, ⟨.p, w19, 757⟩, ⟨.id, w157, 758⟩, ⟨.id, w377, 758⟩, ⟨.p, w4, 758⟩, ⟨.id, w152, 758⟩,
   ⟨.id, w340, 758⟩, ⟨.p, w19, 758⟩, ⟨.id, w26, 759⟩, ⟨.p, w1, 759⟩, ⟨.p, w19, 759⟩, ⟨.int, w130, 759⟩,
   ⟨.p, w25, 759⟩, ⟨.p, w25, 760⟩, ⟨.id, w156, 760⟩, ⟨.p, w19, 760⟩, ⟨.id, w26, 761⟩, ⟨.p, w1, 761⟩, ⟨.p, w19, 761⟩,
   ⟨.int, w185, 761⟩, ⟨.p, w210, 761⟩, ⟨.id, w84, 761⟩, ⟨.id, w23, 761⟩, ⟨.p, w0, 761⟩, ⟨.id, w62, 761⟩,
   ⟨.p, w25, 761⟩, ⟨.p, w25, 762⟩, ⟨.p, w10, 762⟩, ⟨.id, w26, 764⟩, ⟨.p, w1, 764⟩, ⟨.p, w19, 764⟩, ⟨.p, w0, 765⟩,
   ⟨.p, w2, 765⟩, ⟨.id, w237, 765⟩, ⟨.p, w6, 765⟩, ⟨.p, w0, 766⟩, ⟨.p, w2, 766⟩, ⟨.id, w378, 766⟩, ⟨.p, w42, 766⟩,
   ⟨.id, w379, 766⟩, ⟨.p, w47, 766⟩, ⟨.p, w6, 766⟩, ⟨.id, w46, 767⟩, ⟨.p, w0, 767⟩, ⟨.id, w99, 767⟩, ⟨.p, w19, 767⟩,
   ⟨.p, w0, 769⟩, ⟨.p, w2, 769⟩, ⟨.id, w380, 769⟩, ⟨.p, w42, 769⟩, ⟨.id, w381, 769⟩, ⟨.p, w4, 769⟩,
   ⟨.str, w382, 769⟩, ⟨.p, w47, 771⟩, ⟨.p, w6, 771⟩, ⟨.p, w0, 772⟩, ⟨.p, w2, 772⟩, ⟨.id, w378, 772⟩, ⟨.p, w42, 772⟩,
   ⟨.id, w379, 772⟩, ⟨.p, w47, 772⟩, ⟨.p, w6, 772⟩, ⟨.id, w383, 773⟩, ⟨.id, w362, 773⟩, ⟨.id, w37, 773⟩,
   ⟨.id, w384, 773⟩, ⟨.p, w42, 773⟩, ⟨.id, w84, 774⟩, ⟨.p, w21, 774⟩, ⟨.p, w47, 775⟩, ⟨.p, w48, 775⟩, ⟨.p, w0, 775⟩,
   ⟨.id, w55, 775⟩, ⟨.p, w13, 775⟩, ⟨.id, w223, 775⟩, ⟨.p, w39, 775⟩, ⟨.p, w0, 775⟩, ⟨.id, w99, 775⟩, ⟨.p, w41, 775⟩,
   ⟨.p, w19, 775⟩, ⟨.p, w0, 776⟩, ⟨.id, w55, 776⟩, ⟨.p, w13, 776⟩, ⟨.id, w223, 776⟩, ⟨.p, w19, 776⟩,
   ⟨.id, w292, 776⟩, ⟨.p, w44, 776⟩, ⟨.p, w0, 776⟩, ⟨.id, w377, 776⟩, ⟨.p, w25, 776⟩, ⟨.p, w25, 777⟩, ⟨.p, w25, 778⟩,
   ⟨.p, w0, 780⟩, ⟨.p, w2, 780⟩, ⟨.id, w237, 780⟩, ⟨.p, w6, 780⟩, ⟨.p, w0, 781⟩, ⟨.p, w2, 781⟩, ⟨.id, w378, 781⟩,
   ⟨.p, w42, 781⟩, ⟨.id, w379, 781⟩, ⟨.p, w47, 781⟩, ⟨.p, w6, 781⟩, ⟨.id, w46, 782⟩, ⟨.id, w385, 782⟩,
   ⟨.p, w19, 782⟩, ⟨.id, w383, 783⟩, ⟨.id, w362, 783⟩, ⟨.id, w37, 783⟩, ⟨.id, w386, 783⟩, ⟨.p, w42, 783⟩,
   ⟨.p, w83, 784⟩, ⟨.id, w84, 784⟩, ⟨.p, w21, 784⟩, ⟨.id, w387, 785⟩, ⟨.p, w44, 785⟩, ⟨.p, w0, 785⟩, ⟨.id, w55, 785⟩,
   ⟨.p, w13, 785⟩, ⟨.id, w223, 785⟩, ⟨.p, w39, 785⟩, ⟨.p, w0, 785⟩, ⟨.id, w99, 785⟩, ⟨.p, w41, 785⟩, ⟨.p, w21, 785⟩,
   ⟨.id, w388, 786⟩, ⟨.p, w44, 786⟩, ⟨.p, w0, 786⟩, ⟨.id, w55, 786⟩, ⟨.p, w13, 786⟩, ⟨.id, w223, 786⟩,
   ⟨.p, w39, 786⟩, ⟨.p, w0, 786⟩, ⟨.id, w99, 786⟩, ⟨.p, w41, 786⟩, ⟨.p, w21, 786⟩, ⟨.p, w47, 787⟩, ⟨.p, w48, 787⟩,
   ⟨.p, w0, 787⟩, ⟨.id, w55, 787⟩, ⟨.p, w13, 787⟩, ⟨.id, w223, 787⟩, ⟨.p, w39, 787⟩, ⟨.p, w0, 787⟩, ⟨.id, w99, 787⟩,
   ⟨.p, w41, 787⟩, ⟨.p, w19, 787⟩, ⟨.p, w0, 788⟩, ⟨.id, w55, 788⟩, ⟨.p, w13, 788⟩, ⟨.id, w223, 788⟩, ⟨.p, w19, 788⟩,
   ⟨.id, w292, 789⟩, ⟨.p, w44, 789⟩, ⟨.id, w387, 789⟩, ⟨.p, w121, 789⟩, ⟨.id, w292, 789⟩, ⟨.p, w126, 789⟩,
   ⟨.id, w388, 789⟩, ⟨.p, w121, 789⟩, ⟨.id, w292, 789⟩, ⟨.p, w21, 789⟩, ⟨.p, w25, 790⟩, ⟨.p, w25, 791⟩,
   ⟨.id, w383, 793⟩, ⟨.id, w362, 793⟩, ⟨.id, w37, 793⟩, ⟨.id, w389, 793⟩, ⟨.p, w42, 793⟩, ⟨.p, w83, 794⟩,
   ⟨.id, w84, 794⟩, ⟨.p, w21, 794⟩, ⟨.id, w387, 795⟩, ⟨.p, w44, 795⟩, ⟨.p, w0, 795⟩, ⟨.id, w55, 795⟩, ⟨.p, w13, 795⟩,
   ⟨.id, w223, 795⟩, ⟨.p, w39, 795⟩, ⟨.p, w0, 795⟩, ⟨.id, w99, 795⟩, ⟨.p, w41, 795⟩, ⟨.p, w21, 795⟩,
   ⟨.id, w388, 796⟩, ⟨.p, w44, 796⟩, ⟨.p, w0, 796⟩, ⟨.id, w55, 796⟩, ⟨.p, w13, 796⟩, ⟨.id, w223, 796⟩,
   ⟨.p, w39, 796⟩, ⟨.p, w0, 796⟩, ⟨.id, w99, 796⟩, ⟨.p, w41, 796⟩, ⟨.p, w21, 796⟩, ⟨.p, w47, 797⟩, ⟨.p, w48, 797⟩,
   ⟨.p, w0, 797⟩, ⟨.id, w55, 797⟩, ⟨.p, w13, 797⟩, ⟨.id, w223, 797⟩, ⟨.p, w39, 797⟩, ⟨.p, w0, 797⟩, ⟨.id, w99, 797⟩,
   ⟨.p, w41, 797⟩, ⟨.p, w19, 797⟩, ⟨.p, w0, 798⟩, ⟨.id, w55, 798⟩, ⟨.p, w13, 798⟩, ⟨.id, w223, 798⟩, ⟨.p, w19, 798⟩,
   ⟨.id, w292, 799⟩, ⟨.p, w44, 799⟩, ⟨.id, w387, 799⟩, ⟨.p, w121, 799⟩, ⟨.id, w292, 799⟩, ⟨.p, w83, 799⟩,
   ⟨.id, w388, 799⟩, ⟨.p, w121, 799⟩, ⟨.id, w292, 799⟩, ⟨.p, w21, 799⟩, ⟨.p, w25, 800⟩, ⟨.p, w25, 801⟩,
   ⟨.id, w383, 803⟩, ⟨.id, w362, 803⟩, ⟨.id, w37, 803⟩, ⟨.id, w390, 803⟩, ⟨.p, w42, 803⟩, ⟨.p, w83, 804⟩,
   ⟨.id, w84, 804⟩, ⟨.p, w21, 804⟩, ⟨.id, w387, 805⟩, ⟨.p, w44, 805⟩, ⟨.p, w0, 805⟩, ⟨.id, w55, 805⟩, ⟨.p, w13, 805⟩,
   ⟨.id, w223, 805⟩, ⟨.p, w39, 805⟩, ⟨.p, w0, 805⟩, ⟨.id, w99, 805⟩, ⟨.p, w41, 805⟩, ⟨.p, w21, 805⟩,
   ⟨.id, w388, 806⟩, ⟨.p, w44, 806⟩, ⟨.p, w0, 806⟩, ⟨.id, w55, 806⟩, ⟨.p, w13, 806⟩, ⟨.id, w223, 806⟩,
   ⟨.p, w39, 806⟩, ⟨.p, w0, 806⟩, ⟨.id, w99, 806⟩, ⟨.p, w41, 806⟩, ⟨.p, w21, 806⟩, ⟨.p, w47, 807⟩, ⟨.p, w48, 807⟩,
   ⟨.p, w0, 807⟩, ⟨.id, w55, 807⟩, ⟨.p, w13, 807⟩, ⟨.id, w223, 807⟩, ⟨.p, w39, 807⟩, ⟨.p, w0, 807⟩, ⟨.id, w99, 807⟩,
   ⟨.p, w41, 807⟩, ⟨.p, w19, 807⟩, ⟨.p, w0, 808⟩, ⟨.id, w55, 808⟩, ⟨.p, w13, 808⟩, ⟨.id, w223, 808⟩, ⟨.p, w19, 808⟩,
   ⟨.id, w292, 809⟩, ⟨.p, w44, 809⟩, ⟨.id, w387, 809⟩, ⟨.p, w121, 809⟩, ⟨.id, w292, 809⟩, ⟨.p, w255, 809⟩,
   ⟨.id, w388, 809⟩, ⟨.p, w121, 809⟩, ⟨.id, w292, 809⟩, ⟨.p, w21, 809⟩, ⟨.p, w25, 810⟩, ⟨.p, w25, 811⟩,
   ⟨.id, w383, 813⟩, ⟨.id, w362, 813⟩, ⟨.id, w37, 813⟩, ⟨.id, w391, 813⟩, ⟨.p, w42, 813⟩, ⟨.p, w83, 814⟩,
   ⟨.id, w84, 814⟩, ⟨.p, w21, 814⟩, ⟨.id, w392, 815⟩, ⟨.p, w44, 815⟩, ⟨.p, w0, 815⟩, ⟨.id, w55, 815⟩, ⟨.p, w13, 815⟩,
   ⟨.id, w223, 815⟩, ⟨.p, w39, 815⟩, ⟨.p, w0, 815⟩, ⟨.id, w99, 815⟩, ⟨.p, w41, 815⟩, ⟨.p, w21, 815⟩, ⟨.p, w47, 816⟩,
   ⟨.p, w48, 816⟩, ⟨.p, w0, 816⟩, ⟨.id, w55, 816⟩, ⟨.p, w13, 816⟩, ⟨.id, w223, 816⟩, ⟨.p, w39, 816⟩, ⟨.p, w0, 816⟩,
   ⟨.id, w99, 816⟩, ⟨.p, w41, 816⟩, ⟨.p, w19, 816⟩, ⟨.id, w157, 817⟩, ⟨.id, w132, 817⟩, ⟨.id, w393, 817⟩,
   ⟨.p, w4, 817⟩, ⟨.p, w0, 817⟩, ⟨.id, w55, 817⟩, ⟨.p, w13, 817⟩, ⟨.id, w223, 817⟩, ⟨.p, w13, 817⟩, ⟨.p, w39, 817⟩,
   ⟨.p, w0, 817⟩, ⟨.id, w99, 817⟩, ⟨.p, w41, 817⟩, ⟨.p, w13, 817⟩, ⟨.id, w393, 817⟩, ⟨.p, w42, 817⟩, ⟨.p, w47, 817⟩,
   ⟨.p, w10, 817⟩, ⟨.p, w0, 818⟩, ⟨.id, w55, 818⟩, ⟨.p, w13, 818⟩, ⟨.id, w223, 818⟩, ⟨.p, w19, 818⟩,
   ⟨.id, w292, 819⟩, ⟨.p, w44, 819⟩, ⟨.p, w1, 819⟩, ⟨.id, w392, 819⟩, ⟨.p, w121, 819⟩, ⟨.id, w292, 819⟩,
   ⟨.p, w83, 819⟩, ⟨.id, w393, 819⟩, ⟨.p, w121, 819⟩, ⟨.id, w292, 819⟩, ⟨.p, w21, 819⟩, ⟨.p, w25, 820⟩,
   ⟨.p, w25, 821⟩, ⟨.p, w25, 822⟩, ⟨.p, w25, 823⟩, ⟨.p, w25, 824⟩, ⟨.id, w74, 825⟩, ⟨.p, w13, 825⟩, ⟨.id, w80, 825⟩,
   ⟨.p, w42, 825⟩, ⟨.id, w92, 825⟩, ⟨.p, w47, 825⟩, ⟨.p, w86, 825⟩, ⟨.p, w19, 825⟩, ⟨.id, w26, 826⟩, ⟨.p, w1, 826⟩,
   ⟨.p, w19, 826⟩, ⟨.p, w0, 827⟩, ⟨.p, w2, 827⟩, ⟨.id, w237, 827⟩, ⟨.p, w6, 827⟩, ⟨.p, w0, 828⟩, ⟨.p, w2, 828⟩,
   ⟨.id, w378, 828⟩, ⟨.p, w42, 828⟩, ⟨.id, w379, 828⟩, ⟨.p, w47, 828⟩, ⟨.p, w6, 828⟩, ⟨.id, w46, 829⟩, ⟨.p, w0, 829⟩,
   ⟨.id, w99, 829⟩, ⟨.p, w19, 829⟩, ⟨.p, w0, 831⟩, ⟨.p, w2, 831⟩, ⟨.id, w380, 831⟩, ⟨.p, w42, 831⟩, ⟨.id, w381, 831⟩,
   ⟨.p, w4, 831⟩, ⟨.str, w382, 831⟩, ⟨.p, w47, 833⟩, ⟨.p, w6, 833⟩, ⟨.p, w0, 834⟩, ⟨.p, w2, 834⟩, ⟨.id, w378, 834⟩,
   ⟨.p, w42, 834⟩, ⟨.id, w379, 834⟩, ⟨.p, w47, 834⟩, ⟨.p, w6, 834⟩, ⟨.id, w383, 835⟩, ⟨.id, w362, 835⟩,
   ⟨.id, w37, 835⟩, ⟨.id, w384, 835⟩, ⟨.p, w42, 835⟩, ⟨.id, w84, 836⟩, ⟨.p, w21, 836⟩, ⟨.p, w47, 837⟩,
   ⟨.p, w48, 837⟩, ⟨.p, w0, 837⟩, ⟨.id, w55, 837⟩, ⟨.p, w13, 837⟩, ⟨.id, w223, 837⟩, ⟨.p, w39, 837⟩, ⟨.p, w0, 837⟩,
   ⟨.id, w99, 837⟩, ⟨.p, w41, 837⟩, ⟨.p, w19, 837⟩, ⟨.id, w157, 838⟩, ⟨.id, w132, 838⟩, ⟨.id, w288, 838⟩,
   ⟨.p, w4, 838⟩, ⟨.p, w0, 838⟩, ⟨.id, w55, 838⟩, ⟨.p, w13, 838⟩, ⟨.id, w223, 838⟩, ⟨.p, w13, 838⟩, ⟨.p, w39, 838⟩,
   ⟨.p, w0, 838⟩, ⟨.id, w99, 838⟩, ⟨.p, w41, 838⟩, ⟨.p, w19, 838⟩, ⟨.id, w292, 839⟩, ⟨.p, w44, 839⟩, ⟨.p, w0, 839⟩,
   ⟨.id, w227, 839⟩, ⟨.p, w13, 839⟩, ⟨.id, w229, 839⟩, ⟨.p, w13, 839⟩, ⟨.p, w39, 839⟩, ⟨.p, w19, 839⟩, ⟨.p, w0, 839⟩,
   ⟨.id, w92, 839⟩, ⟨.p, w25, 839⟩, ⟨.p, w41, 839⟩, ⟨.p, w42, 839⟩, ⟨.p, w2, 839⟩, ⟨.int, w130, 839⟩, ⟨.p, w10, 839⟩,
   ⟨.p, w0, 839⟩, ⟨.id, w92, 839⟩, ⟨.p, w6, 839⟩, ⟨.p, w47, 839⟩, ⟨.p, w21, 839⟩, ⟨.p, w25, 840⟩, ⟨.p, w10, 840⟩,
   ⟨.id, w157, 841⟩, ⟨.id, w204, 841⟩, ⟨.p, w4, 841⟩, ⟨.id, w84, 841⟩, ⟨.id, w23, 841⟩, ⟨.id, w102, 841⟩,
   ⟨.p, w10, 841⟩, ⟨.id, w157, 842⟩, ⟨.p, w42, 842⟩, ⟨.id, w203, 842⟩, ⟨.p, w21, 842⟩, ⟨.id, w204, 842⟩,
   ⟨.p, w47, 842⟩, ⟨.p, w4, 842⟩, ⟨.p, w42, 842⟩, ⟨.id, w204, 842⟩, ⟨.id, w23, 842⟩, ⟨.id, w81, 842⟩,
   ⟨.p, w192, 842⟩, ⟨.int, w90, 842⟩, ⟨.p, w21, 842⟩, ⟨.id, w204, 842⟩, ⟨.p, w205, 842⟩, ⟨.int, w90, 842⟩,
   ⟨.p, w47, 842⟩, ⟨.p, w10, 842⟩, ⟨.id, w288, 843⟩, ⟨.p, w121, 843⟩, ⟨.id, w292, 843⟩, ⟨.p, w121, 843⟩,
   ⟨.int, w130, 843⟩, ⟨.p, w2, 843⟩, ⟨.id, w203, 843⟩, ⟨.p, w6, 843⟩, ⟨.p, w208, 843⟩, ⟨.int, w209, 843⟩,
   ⟨.p, w210, 843⟩, ⟨.id, w204, 843⟩, ⟨.p, w10, 843⟩, ⟨.id, w288, 844⟩, ⟨.p, w25, 845⟩, ⟨.p, w25, 846⟩,
   ⟨.p, w0, 848⟩, ⟨.p, w2, 848⟩, ⟨.id, w237, 848⟩, ⟨.p, w6, 848⟩, ⟨.p, w0, 849⟩, ⟨.p, w2, 849⟩, ⟨.id, w378, 849⟩,
   ⟨.p, w42, 849⟩, ⟨.id, w379, 849⟩, ⟨.p, w47, 849⟩, ⟨.p, w6, 849⟩, ⟨.id, w46, 850⟩, ⟨.id, w385, 850⟩,
   ⟨.p, w19, 850⟩, ⟨.id, w383, 851⟩, ⟨.id, w362, 851⟩, ⟨.id, w37, 851⟩, ⟨.id, w386, 851⟩, ⟨.p, w42, 851⟩,
   ⟨.p, w83, 852⟩, ⟨.id, w84, 852⟩, ⟨.p, w21, 852⟩, ⟨.id, w132, 853⟩, ⟨.id, w387, 853⟩, ⟨.p, w44, 853⟩,
   ⟨.p, w0, 853⟩, ⟨.id, w55, 853⟩, ⟨.p, w13, 853⟩, ⟨.id, w223, 853⟩, ⟨.p, w39, 853⟩, ⟨.p, w0, 853⟩, ⟨.id, w99, 853⟩,
   ⟨.p, w41, 853⟩, ⟨.p, w21, 853⟩, ⟨.id, w388, 854⟩, ⟨.p, w44, 854⟩, ⟨.p, w0, 854⟩, ⟨.id, w55, 854⟩, ⟨.p, w13, 854⟩,
   ⟨.id, w223, 854⟩, ⟨.p, w39, 854⟩, ⟨.p, w0, 854⟩, ⟨.id, w99, 854⟩, ⟨.p, w41, 854⟩, ⟨.p, w21, 854⟩, ⟨.p, w47, 855⟩,
   ⟨.p, w48, 855⟩, ⟨.p, w0, 855⟩, ⟨.id, w55, 855⟩, ⟨.p, w13, 855⟩, ⟨.id, w223, 855⟩, ⟨.p, w39, 855⟩, ⟨.p, w0, 855⟩,
   ⟨.id, w99, 855⟩, ⟨.p, w41, 855⟩, ⟨.p, w19, 855⟩, ⟨.id, w157, 856⟩, ⟨.id, w132, 856⟩, ⟨.id, w168, 856⟩,
   ⟨.p, w4, 856⟩, ⟨.int, w130, 856⟩, ⟨.p, w10, 856⟩, ⟨.id, w206, 857⟩, ⟨.id, w168, 857⟩, ⟨.p, w39, 857⟩,
   ⟨.p, w0, 857⟩, ⟨.id, w92, 857⟩, ⟨.p, w19, 857⟩, ⟨.id, w387, 858⟩, ⟨.p, w121, 858⟩, ⟨.id, w292, 858⟩,
   ⟨.p, w121, 858⟩, ⟨.int, w130, 858⟩, ⟨.p, w2, 858⟩, ⟨.id, w168, 858⟩, ⟨.p, w6, 858⟩, ⟨.p, w208, 858⟩,
   ⟨.id, w388, 858⟩, ⟨.p, w121, 858⟩, ⟨.id, w292, 858⟩, ⟨.p, w121, 858⟩, ⟨.int, w130, 858⟩, ⟨.p, w2, 858⟩,
   ⟨.id, w168, 858⟩, ⟨.p, w6, 858⟩, ⟨.p, w10, 858⟩, ⟨.id, w168, 859⟩, ⟨.p, w184, 859⟩, ⟨.int, w185, 859⟩,
   ⟨.p, w10, 859⟩, ⟨.p, w25, 860⟩, ⟨.id, w387, 861⟩, ⟨.p, w25, 862⟩, ⟨.id, w383, 864⟩, ⟨.id, w362, 864⟩,
   ⟨.id, w37, 864⟩, ⟨.id, w389, 864⟩, ⟨.p, w42, 864⟩, ⟨.p, w83, 865⟩, ⟨.id, w84, 865⟩, ⟨.p, w21, 865⟩,
   ⟨.id, w132, 866⟩, ⟨.id, w387, 866⟩, ⟨.p, w44, 866⟩, ⟨.p, w0, 866⟩, ⟨.id, w55, 866⟩, ⟨.p, w13, 866⟩,
   ⟨.id, w223, 866⟩, ⟨.p, w39, 866⟩, ⟨.p, w0, 866⟩, ⟨.id, w99, 866⟩, ⟨.p, w41, 866⟩, ⟨.p, w21, 866⟩,
   ⟨.id, w388, 867⟩, ⟨.p, w44, 867⟩, ⟨.p, w0, 867⟩, ⟨.id, w55, 867⟩, ⟨.p, w13, 867⟩, ⟨.id, w223, 867⟩,
   ⟨.p, w39, 867⟩, ⟨.p, w0, 867⟩, ⟨.id, w99, 867⟩, ⟨.p, w41, 867⟩, ⟨.p, w21, 867⟩, ⟨.p, w47, 868⟩, ⟨.p, w48, 868⟩,
   ⟨.p, w0, 868⟩, ⟨.id, w55, 868⟩, ⟨.p, w13, 868⟩, ⟨.id, w223, 868⟩, ⟨.p, w39, 868⟩, ⟨.p, w0, 868⟩, ⟨.id, w99, 868⟩,
   ⟨.p, w41, 868⟩, ⟨.p, w19, 868⟩, ⟨.id, w157, 869⟩, ⟨.id, w132, 869⟩, ⟨.id, w168, 869⟩, ⟨.p, w4, 869⟩,
   ⟨.int, w130, 869⟩, ⟨.p, w10, 869⟩, ⟨.id, w206, 870⟩, ⟨.id, w168, 870⟩, ⟨.p, w39, 870⟩, ⟨.p, w0, 870⟩,
   ⟨.id, w92, 870⟩, ⟨.p, w19, 870⟩, ⟨.id, w387, 871⟩, ⟨.p, w121, 871⟩, ⟨.id, w292, 871⟩, ⟨.p, w121, 871⟩,
   ⟨.int, w130, 871⟩, ⟨.p, w2, 871⟩, ⟨.id, w168, 871⟩, ⟨.p, w6, 871⟩, ⟨.p, w394, 871⟩, ⟨.id, w388, 871⟩,
   ⟨.p, w121, 871⟩, ⟨.id, w292, 871⟩, ⟨.p, w121, 871⟩, ⟨.int, w130, 871⟩, ⟨.p, w2, 871⟩, ⟨.id, w168, 871⟩,
   ⟨.p, w6, 871⟩, ⟨.p, w10, 871⟩, ⟨.id, w168, 872⟩, ⟨.p, w184, 872⟩, ⟨.int, w185, 872⟩, ⟨.p, w10, 872⟩,
   ⟨.p, w25, 873⟩, ⟨.id, w387, 874⟩, ⟨.p, w25, 875⟩, ⟨.id, w383, 877⟩, ⟨.id, w362, 877⟩, ⟨.id, w37, 877⟩,
   ⟨.id, w390, 877⟩, ⟨.p, w42, 877⟩, ⟨.p, w83, 878⟩, ⟨.id, w84, 878⟩, ⟨.p, w21, 878⟩, ⟨.id, w132, 879⟩,
   ⟨.id, w387, 879⟩, ⟨.p, w44, 879⟩, ⟨.p, w0, 879⟩, ⟨.id, w55, 879⟩, ⟨.p, w13, 879⟩, ⟨.id, w223, 879⟩,
   ⟨.p, w39, 879⟩, ⟨.p, w0, 879⟩, ⟨.id, w99, 879⟩, ⟨.p, w41, 879⟩, ⟨.p, w21, 879⟩, ⟨.id, w388, 880⟩, ⟨.p, w44, 880⟩,
   ⟨.p, w0, 880⟩, ⟨.id, w55, 880⟩, ⟨.p, w13, 880⟩, ⟨.id, w223, 880⟩, ⟨.p, w39, 880⟩, ⟨.p, w0, 880⟩, ⟨.id, w99, 880⟩,
   ⟨.p, w41, 880⟩, ⟨.p, w21, 880⟩, ⟨.p, w47, 881⟩, ⟨.p, w48, 881⟩, ⟨.p, w0, 881⟩, ⟨.id, w55, 881⟩, ⟨.p, w13, 881⟩,
   ⟨.id, w223, 881⟩, ⟨.p, w39, 881⟩, ⟨.p, w0, 881⟩, ⟨.id, w99, 881⟩, ⟨.p, w41, 881⟩, ⟨.p, w19, 881⟩,
   ⟨.id, w157, 882⟩, ⟨.id, w132, 882⟩, ⟨.id, w168, 882⟩, ⟨.p, w4, 882⟩, ⟨.int, w130, 882⟩, ⟨.p, w10, 882⟩,
   ⟨.id, w206, 883⟩, ⟨.id, w168, 883⟩, ⟨.p, w39, 883⟩, ⟨.p, w0, 883⟩, ⟨.id, w92, 883⟩, ⟨.p, w19, 883⟩,
   ⟨.id, w387, 884⟩, ⟨.p, w121, 884⟩, ⟨.id, w292, 884⟩, ⟨.p, w121, 884⟩, ⟨.int, w130, 884⟩, ⟨.p, w2, 884⟩,
   ⟨.id, w168, 884⟩, ⟨.p, w6, 884⟩, ⟨.p, w395, 884⟩, ⟨.id, w388, 884⟩, ⟨.p, w121, 884⟩, ⟨.id, w292, 884⟩,
   ⟨.p, w121, 884⟩, ⟨.int, w130, 884⟩, ⟨.p, w2, 884⟩, ⟨.id, w168, 884⟩, ⟨.p, w6, 884⟩, ⟨.p, w10, 884⟩,
   ⟨.id, w168, 885⟩, ⟨.p, w184, 885⟩, ⟨.int, w185, 885⟩, ⟨.p, w10, 885⟩, ⟨.p, w25, 886⟩, ⟨.id, w387, 887⟩,
   ⟨.p, w25, 888⟩, ⟨.id, w383, 890⟩, ⟨.id, w362, 890⟩, ⟨.id, w37, 890⟩, ⟨.id, w391, 890⟩, ⟨.p, w42, 890⟩,
   ⟨.p, w83, 891⟩, ⟨.id, w84, 891⟩, ⟨.p, w21, 891⟩, ⟨.id, w132, 892⟩, ⟨.id, w392, 892⟩, ⟨.p, w44, 892⟩,
   ⟨.p, w0, 892⟩, ⟨.id, w55, 892⟩, ⟨.p, w13, 892⟩, ⟨.id, w223, 892⟩, ⟨.p, w39, 892⟩, ⟨.p, w0, 892⟩, ⟨.id, w99, 892⟩,
   ⟨.p, w41, 892⟩, ⟨.p, w21, 892⟩, ⟨.p, w47, 893⟩, ⟨.p, w48, 893⟩, ⟨.p, w0, 893⟩, ⟨.id, w55, 893⟩, ⟨.p, w13, 893⟩,
   ⟨.id, w223, 893⟩, ⟨.p, w39, 893⟩, ⟨.p, w0, 893⟩, ⟨.id, w99, 893⟩, ⟨.p, w41, 893⟩, ⟨.p, w19, 893⟩,
   ⟨.id, w157, 894⟩, ⟨.id, w132, 894⟩, ⟨.id, w393, 894⟩, ⟨.p, w4, 894⟩, ⟨.p, w0, 894⟩, ⟨.id, w55, 894⟩,
   ⟨.p, w13, 894⟩, ⟨.id, w223, 894⟩, ⟨.p, w13, 894⟩, ⟨.p, w39, 894⟩, ⟨.p, w0, 894⟩, ⟨.id, w99, 894⟩, ⟨.p, w41, 894⟩,
   ⟨.p, w13, 894⟩, ⟨.id, w393, 894⟩, ⟨.p, w42, 894⟩, ⟨.p, w47, 894⟩, ⟨.p, w10, 894⟩, ⟨.id, w157, 895⟩,
   ⟨.id, w132, 895⟩, ⟨.id, w168, 895⟩, ⟨.p, w4, 895⟩, ⟨.int, w130, 895⟩, ⟨.p, w10, 895⟩, ⟨.id, w206, 896⟩,
   ⟨.id, w168, 896⟩, ⟨.p, w39, 896⟩, ⟨.p, w0, 896⟩, ⟨.id, w92, 896⟩, ⟨.p, w19, 896⟩, ⟨.id, w157, 897⟩,
   ⟨.id, w50, 897⟩, ⟨.p, w4, 897⟩, ⟨.p, w1, 897⟩, ⟨.id, w392, 897⟩, ⟨.p, w121, 897⟩, ⟨.id, w292, 897⟩,
   ⟨.p, w121, 897⟩, ⟨.int, w130, 897⟩, ⟨.p, w2, 897⟩, ⟨.id, w168, 897⟩, ⟨.p, w6, 897⟩, ⟨.p, w83, 897⟩,
   ⟨.id, w393, 897⟩, ⟨.p, w121, 897⟩, ⟨.id, w292, 897⟩, ⟨.p, w121, 897⟩, ⟨.int, w130, 897⟩, ⟨.p, w2, 897⟩,
   ⟨.id, w168, 897⟩, ⟨.p, w6, 897⟩, ⟨.p, w10, 897⟩, ⟨.id, w392, 898⟩, ⟨.p, w121, 898⟩, ⟨.id, w292, 898⟩,
   ⟨.p, w121, 898⟩, ⟨.int, w130, 898⟩, ⟨.p, w2, 898⟩, ⟨.id, w168, 898⟩, ⟨.p, w6, 898⟩, ⟨.p, w4, 898⟩,
   ⟨.id, w50, 898⟩, ⟨.p, w10, 898⟩, ⟨.id, w168, 899⟩, ⟨.p, w184, 899⟩, ⟨.int, w185, 899⟩, ⟨.p, w10, 899⟩,
   ⟨.p, w25, 900⟩, ⟨.id, w392, 901⟩, ⟨.p, w25, 902⟩, ⟨.p, w25, 903⟩, ⟨.p, w25, 904⟩, ⟨.p, w25, 905⟩, ⟨.p, w25, 906⟩,
   ⟨.p, w10, 906⟩, ⟨.id, w157, 908⟩, ⟨.id, w132, 908⟩, ⟨.id, w396, 908⟩, ⟨.p, w4, 908⟩, ⟨.id, w24, 908⟩,
   ⟨.p, w13, 908⟩, ⟨.id, w50, 908⟩, ⟨.p, w42, 908⟩, ⟨.p, w47, 908⟩, ⟨.p, w10, 908⟩, ⟨.id, w201, 909⟩, ⟨.p, w42, 909⟩,
   ⟨.id, w43, 909⟩, ⟨.p, w21, 909⟩, ⟨.id, w397, 909⟩, ⟨.p, w47, 909⟩, ⟨.id, w202, 909⟩, ⟨.id, w213, 909⟩,
   ⟨.p, w19, 909⟩, ⟨.id, w396, 910⟩, ⟨.p, w121, 910⟩, ⟨.id, w398, 910⟩, ⟨.p, w42, 910⟩, ⟨.id, w399, 910⟩,
   ⟨.p, w1, 910⟩, ⟨.p, w19, 910⟩, ⟨.id, w43, 911⟩, ⟨.p, w86, 911⟩, ⟨.p, w19, 911⟩, ⟨.p, w0, 912⟩, ⟨.p, w2, 912⟩,
   ⟨.id, w380, 912⟩, ⟨.p, w42, 912⟩, ⟨.id, w381, 912⟩, ⟨.p, w4, 912⟩, ⟨.p, w0, 912⟩, ⟨.id, w397, 912⟩,
   ⟨.p, w47, 912⟩, ⟨.p, w6, 912⟩, ⟨.p, w0, 913⟩, ⟨.p, w2, 913⟩, ⟨.id, w103, 913⟩, ⟨.p, w42, 913⟩, ⟨.id, w400, 913⟩,
   ⟨.p, w47, 913⟩, ⟨.p, w6, 913⟩, ⟨.id, w362, 914⟩, ⟨.id, w401, 914⟩, ⟨.p, w44, 914⟩, ⟨.p, w42, 914⟩, ⟨.p, w47, 914⟩,
   ⟨.p, w4, 914⟩, ⟨.p, w42, 914⟩, ⟨.p, w47, 914⟩, ⟨.p, w10, 914⟩, ⟨.id, w157, 915⟩, ⟨.id, w141, 915⟩, ⟨.p, w4, 915⟩,
   ⟨.id, w401, 915⟩, ⟨.p, w10, 915⟩, ⟨.p, w25, 916⟩, ⟨.p, w25, 917⟩, ⟨.p, w47, 917⟩, ⟨.p, w10, 917⟩, ⟨.p, w25, 918⟩,
   ⟨.id, w157, 920⟩, ⟨.id, w402, 920⟩, ⟨.p, w4, 920⟩, ⟨.id, w212, 920⟩, ⟨.p, w121, 920⟩, ⟨.id, w113, 920⟩,
   ⟨.p, w191, 920⟩, ⟨.int, w185, 920⟩, ⟨.p, w10, 920⟩, ⟨.id, w157, 921⟩, ⟨.id, w403, 921⟩, ⟨.p, w4, 921⟩,
   ⟨.id, w212, 921⟩, ⟨.p, w121, 921⟩, ⟨.id, w109, 921⟩, ⟨.p, w121, 921⟩, ⟨.id, w207, 921⟩, ⟨.p, w42, 921⟩,
   ⟨.p, w47, 921⟩, ⟨.id, w23, 921⟩, ⟨.id, w102, 921⟩, ⟨.p, w10, 921⟩, ⟨.id, w157, 922⟩, ⟨.id, w111, 922⟩,
   ⟨.p, w4, 922⟩, ⟨.p, w83, 922⟩, ⟨.id, w212, 922⟩, ⟨.p, w121, 922⟩, ⟨.id, w111, 922⟩, ⟨.p, w10, 922⟩,
   ⟨.id, w26, 923⟩, ⟨.p, w1, 923⟩, ⟨.p, w19, 923⟩, ⟨.id, w362, 924⟩, ⟨.id, w141, 924⟩, ⟨.p, w44, 924⟩,
   ⟨.p, w42, 924⟩, ⟨.p, w47, 924⟩, ⟨.p, w4, 924⟩, ⟨.p, w19, 924⟩, ⟨.p, w0, 925⟩, ⟨.p, w2, 925⟩, ⟨.id, w237, 925⟩,
   ⟨.p, w6, 925⟩, ⟨.p, w0, 926⟩, ⟨.p, w2, 926⟩, ⟨.id, w378, 926⟩, ⟨.p, w42, 926⟩, ⟨.id, w379, 926⟩, ⟨.p, w47, 926⟩,
   ⟨.p, w6, 926⟩, ⟨.p, w0, 927⟩, ⟨.id, w111, 927⟩, ⟨.id, w57, 927⟩, ⟨.id, w385, 927⟩, ⟨.p, w10, 927⟩, ⟨.p, w0, 929⟩,
   ⟨.p, w2, 929⟩, ⟨.id, w237, 929⟩, ⟨.p, w6, 929⟩, ⟨.p, w0, 930⟩, ⟨.p, w2, 930⟩, ⟨.id, w378, 930⟩, ⟨.p, w42, 930⟩,
   ⟨.id, w379, 930⟩, ⟨.p, w47, 930⟩, ⟨.p, w6, 930⟩, ⟨.id, w46, 931⟩, ⟨.p, w0, 931⟩, ⟨.id, w99, 931⟩, ⟨.p, w19, 931⟩,
   ⟨.p, w0, 933⟩, ⟨.p, w2, 933⟩, ⟨.id, w380, 933⟩, ⟨.p, w42, 933⟩, ⟨.id, w381, 933⟩, ⟨.p, w4, 933⟩,
   ⟨.str, w382, 933⟩, ⟨.p, w47, 935⟩, ⟨.p, w6, 935⟩, ⟨.p, w0, 936⟩, ⟨.p, w2, 936⟩, ⟨.id, w378, 936⟩, ⟨.p, w42, 936⟩,
   ⟨.id, w379, 936⟩, ⟨.p, w47, 936⟩, ⟨.p, w6, 936⟩, ⟨.id, w383, 937⟩, ⟨.id, w362, 937⟩, ⟨.id, w37, 937⟩,
   ⟨.id, w404, 937⟩, ⟨.p, w42, 937⟩, ⟨.id, w84, 938⟩, ⟨.p, w21, 938⟩, ⟨.p, w47, 939⟩, ⟨.p, w48, 939⟩,
   ⟨.id, w385, 939⟩, ⟨.p, w19, 939⟩, ⟨.id, w385, 940⟩, ⟨.p, w25, 941⟩, ⟨.p, w25, 942⟩, ⟨.p, w0, 944⟩, ⟨.p, w2, 944⟩,
   ⟨.id, w237, 944⟩, ⟨.p, w6, 944⟩, ⟨.id, w349, 945⟩, ⟨.id, w46, 945⟩, ⟨.p, w0, 945⟩, ⟨.id, w227, 945⟩,
   ⟨.p, w13, 945⟩, ⟨.id, w328, 945⟩, ⟨.id, w201, 945⟩, ⟨.p, w0, 945⟩, ⟨.id, w99, 945⟩, ⟨.p, w19, 945⟩,
   ⟨.id, w241, 946⟩, ⟨.id, w405, 946⟩, ⟨.p, w4, 946⟩, ⟨.id, w385, 946⟩, ⟨.p, w10, 946⟩, ⟨.id, w362, 947⟩,
   ⟨.id, w406, 947⟩, ⟨.p, w44, 947⟩, ⟨.id, w385, 947⟩, ⟨.p, w4, 947⟩, ⟨.id, w385, 947⟩, ⟨.p, w10, 947⟩,
   ⟨.id, w241, 949⟩, ⟨.id, w329, 949⟩, ⟨.p, w4, 949⟩, ⟨.p, w0, 949⟩, ⟨.id, w62, 949⟩, ⟨.p, w10, 949⟩,
   ⟨.id, w362, 950⟩, ⟨.id, w407, 950⟩, ⟨.p, w44, 950⟩, ⟨.id, w245, 950⟩, ⟨.p, w13, 950⟩, ⟨.id, w329, 950⟩,
   ⟨.p, w4, 950⟩, ⟨.p, w0, 950⟩, ⟨.id, w230, 950⟩, ⟨.p, w10, 950⟩, ⟨.id, w362, 951⟩, ⟨.id, w408, 951⟩,
   ⟨.p, w44, 951⟩, ⟨.id, w102, 951⟩, ⟨.p, w4, 951⟩, ⟨.p, w0, 951⟩, ⟨.id, w402, 951⟩, ⟨.p, w10, 951⟩,
   ⟨.id, w362, 952⟩, ⟨.id, w409, 952⟩, ⟨.p, w44, 952⟩, ⟨.id, w102, 952⟩, ⟨.p, w4, 952⟩, ⟨.p, w0, 952⟩,
   ⟨.id, w403, 952⟩, ⟨.p, w10, 952⟩, ⟨.p, w0, 954⟩, ⟨.id, w343, 954⟩, ⟨.p, w0, 955⟩, ⟨.id, w261, 955⟩,
   ⟨.p, w25, 956⟩, ⟨.p, w0, 958⟩, ⟨.p, w2, 958⟩, ⟨.id, w237, 958⟩, ⟨.p, w6, 958⟩, ⟨.id, w349, 959⟩, ⟨.id, w46, 959⟩,
   ⟨.p, w0, 959⟩, ⟨.id, w55, 959⟩, ⟨.p, w13, 959⟩, ⟨.id, w410, 959⟩, ⟨.id, w201, 959⟩, ⟨.p, w0, 959⟩,
   ⟨.id, w99, 959⟩, ⟨.p, w19, 959⟩, ⟨.p, w25, 959⟩, ⟨.p, w0, 961⟩, ⟨.id, w373, 961⟩, ⟨.p, w0, 962⟩, ⟨.id, w368, 962⟩,
   ⟨.p, w0, 963⟩, ⟨.id, w236, 963⟩, ⟨.p, w0, 964⟩, ⟨.id, w376, 964⟩, ⟨.id, w37, 966⟩, ⟨.id, w411, 966⟩,
   ⟨.p, w42, 966⟩, ⟨.p, w47, 966⟩, ⟨.p, w19, 966⟩, ⟨.p, w0, 967⟩, ⟨.id, w396, 967⟩, ⟨.p, w25, 968⟩, ⟨.p, w25, 969⟩,
   ⟨.p, w10, 969⟩, ⟨.p, w25, 970⟩, ⟨.p, w25, 971⟩, ⟨.p, w0, 973⟩, ⟨.p, w2, 973⟩, ⟨.id, w412, 973⟩, ⟨.p, w42, 973⟩,
   ⟨.id, w410, 973⟩, ⟨.p, w21, 973⟩, ⟨.id, w54, 973⟩, ⟨.p, w42, 973⟩, ⟨.id, w55, 973⟩, ⟨.p, w47, 973⟩,
   ⟨.p, w47, 973⟩, ⟨.p, w6, 973⟩, ⟨.id, w383, 974⟩, ⟨.id, w37, 974⟩, ⟨.id, w413, 974⟩, ⟨.p, w42, 974⟩,
   ⟨.id, w118, 974⟩, ⟨.p, w44, 974⟩, ⟨.id, w17, 974⟩, ⟨.p, w47, 974⟩, ⟨.p, w48, 974⟩, ⟨.id, w17, 974⟩,
   ⟨.p, w19, 974⟩, ⟨.id, w157, 975⟩, ⟨.id, w118, 975⟩, ⟨.p, w44, 975⟩, ⟨.id, w119, 975⟩, ⟨.p, w4, 975⟩,
   ⟨.id, w414, 975⟩, ⟨.p, w1, 975⟩, ⟨.p, w42, 975⟩, ⟨.id, w118, 975⟩, ⟨.p, w47, 975⟩, ⟨.p, w10, 975⟩,
   ⟨.id, w157, 976⟩, ⟨.id, w415, 976⟩, ⟨.p, w4, 976⟩, ⟨.id, w118, 976⟩, ⟨.p, w121, 976⟩, ⟨.id, w43, 976⟩,
   ⟨.p, w42, 976⟩, ⟨.p, w47, 976⟩, ⟨.p, w10, 976⟩, ⟨.id, w157, 977⟩, ⟨.id, w120, 977⟩, ⟨.p, w44, 977⟩,
   ⟨.id, w58, 977⟩, ⟨.p, w4, 977⟩, ⟨.id, w85, 977⟩, ⟨.id, w58, 977⟩, ⟨.p, w13, 977⟩, ⟨.id, w416, 977⟩,
   ⟨.p, w42, 977⟩, ⟨.p, w83, 977⟩, ⟨.id, w118, 977⟩, ⟨.p, w47, 977⟩, ⟨.p, w19, 977⟩, ⟨.id, w145, 978⟩,
   ⟨.p, w42, 978⟩, ⟨.id, w120, 978⟩, ⟨.p, w47, 978⟩, ⟨.p, w86, 978⟩, ⟨.id, w120, 978⟩, ⟨.p, w21, 978⟩,
   ⟨.id, w49, 979⟩, ⟨.p, w42, 979⟩, ⟨.id, w417, 979⟩, ⟨.p, w47, 979⟩, ⟨.p, w86, 979⟩, ⟨.id, w279, 979⟩,
   ⟨.id, w417, 979⟩, ⟨.p, w121, 979⟩, ⟨.id, w418, 979⟩, ⟨.p, w42, 979⟩, ⟨.p, w47, 979⟩, ⟨.p, w121, 979⟩,
   ⟨.id, w248, 979⟩, ⟨.p, w42, 979⟩, ⟨.p, w47, 979⟩, ⟨.p, w21, 979⟩, ⟨.p, w25, 980⟩, ⟨.p, w10, 980⟩,
   ⟨.id, w419, 981⟩, ⟨.p, w42, 981⟩, ⟨.id, w118, 981⟩, ⟨.p, w21, 981⟩, ⟨.id, w120, 981⟩, ⟨.p, w21, 981⟩,
   ⟨.id, w415, 981⟩, ⟨.p, w47, 981⟩, ⟨.p, w121, 981⟩, ⟨.id, w420, 981⟩, ⟨.p, w42, 981⟩, ⟨.p, w126, 981⟩,
   ⟨.id, w417, 981⟩, ⟨.p, w126, 981⟩, ⟨.id, w417, 981⟩, ⟨.p, w121, 981⟩, ⟨.id, w421, 981⟩, ⟨.p, w42, 981⟩,
   ⟨.p, w47, 981⟩, ⟨.p, w121, 981⟩, ⟨.id, w248, 981⟩, ⟨.p, w42, 981⟩, ⟨.p, w47, 981⟩, ⟨.p, w47, 981⟩, ⟨.p, w25, 982⟩,
   ⟨.id, w37, 983⟩, ⟨.id, w419, 983⟩, ⟨.p, w42, 983⟩, ⟨.id, w118, 984⟩, ⟨.p, w44, 984⟩, ⟨.id, w119, 984⟩,
   ⟨.p, w21, 984⟩, ⟨.id, w120, 985⟩, ⟨.p, w44, 985⟩, ⟨.id, w58, 985⟩, ⟨.p, w21, 985⟩, ⟨.id, w422, 986⟩,
   ⟨.p, w44, 986⟩, ⟨.id, w22, 986⟩, ⟨.p, w21, 986⟩, ⟨.p, w47, 987⟩, ⟨.p, w48, 987⟩, ⟨.id, w36, 987⟩, ⟨.p, w39, 987⟩,
   ⟨.id, w17, 987⟩, ⟨.p, w41, 987⟩, ⟨.p, w19, 987⟩, ⟨.id, w152, 988⟩, ⟨.p, w1, 988⟩, ⟨.id, w118, 988⟩,
   ⟨.p, w121, 988⟩, ⟨.id, w423, 988⟩, ⟨.p, w121, 988⟩, ⟨.id, w424, 988⟩, ⟨.p, w121, 988⟩, ⟨.id, w341, 988⟩,
   ⟨.p, w42, 988⟩, ⟨.p, w47, 988⟩, ⟨.p, w19, 988⟩, ⟨.id, w38, 989⟩, ⟨.p, w42, 989⟩, ⟨.id, w118, 990⟩,
   ⟨.p, w121, 990⟩, ⟨.id, w423, 990⟩, ⟨.p, w121, 990⟩, ⟨.id, w43, 990⟩, ⟨.p, w42, 990⟩, ⟨.p, w47, 990⟩,
   ⟨.p, w21, 990⟩, ⟨.str, w425, 991⟩, ⟨.p, w21, 991⟩, ⟨.p, w47, 992⟩, ⟨.p, w25, 993⟩, ⟨.id, w156, 993⟩,
   ⟨.id, w152, 993⟩, ⟨.id, w157, 993⟩, ⟨.id, w426, 993⟩, ⟨.p, w13, 993⟩, ⟨.id, w427, 993⟩, ⟨.p, w42, 993⟩,
   ⟨.id, w428, 993⟩, ⟨.p, w47, 993⟩, ⟨.p, w4, 993⟩, ⟨.p, w83, 993⟩, ⟨.id, w118, 993⟩, ⟨.p, w121, 993⟩,
   ⟨.id, w428, 993⟩, ⟨.p, w19, 993⟩, ⟨.id, w157, 994⟩, ⟨.id, w132, 994⟩, ⟨.id, w212, 994⟩, ⟨.p, w4, 994⟩,
   ⟨.id, w105, 994⟩, ⟨.p, w13, 994⟩, ⟨.id, w50, 994⟩, ⟨.p, w42, 994⟩, ⟨.p, w83, 994⟩, ⟨.id, w118, 994⟩,
   ⟨.p, w21, 994⟩, ⟨.p, w83, 994⟩, ⟨.id, w120, 994⟩, ⟨.p, w47, 994⟩, ⟨.p, w10, 994⟩, ⟨.id, w157, 995⟩,
   ⟨.id, w132, 995⟩, ⟨.id, w213, 995⟩, ⟨.p, w4, 995⟩, ⟨.id, w110, 995⟩, ⟨.p, w13, 995⟩, ⟨.id, w50, 995⟩,
   ⟨.p, w42, 995⟩, ⟨.p, w47, 995⟩, ⟨.p, w10, 995⟩, ⟨.id, w201, 998⟩, ⟨.id, w429, 998⟩, ⟨.id, w202, 998⟩,
   ⟨.p, w83, 998⟩, ⟨.id, w118, 998⟩, ⟨.p, w121, 998⟩, ⟨.id, w120, 998⟩, ⟨.p, w19, 998⟩, ⟨.id, w152, 999⟩,
   ⟨.id, w429, 999⟩, ⟨.p, w121, 999⟩, ⟨.id, w430, 999⟩, ⟨.p, w42, 999⟩, ⟨.p, w47, 999⟩, ⟨.p, w121, 999⟩,
   ⟨.id, w431, 999⟩, ⟨.p, w42, 999⟩, ⟨.str, w62, 999⟩, ⟨.p, w47, 999⟩, ⟨.p, w19, 999⟩, ⟨.id, w157, 1000⟩,
   ⟨.id, w432, 1000⟩, ⟨.p, w44, 1000⟩, ⟨.id, w100, 1000⟩, ⟨.p, w4, 1000⟩, ⟨.id, w429, 1000⟩, ⟨.p, w121, 1000⟩,
   ⟨.id, w433, 1000⟩, ⟨.p, w42, 1000⟩, ⟨.p, w47, 1000⟩, ⟨.p, w144, 1000⟩, ⟨.p, w10, 1000⟩, ⟨.id, w85, 1001⟩,
   ⟨.id, w432, 1001⟩, ⟨.p, w121, 1001⟩, ⟨.id, w154, 1001⟩, ⟨.p, w42, 1001⟩, ⟨.p, w47, 1001⟩, ⟨.p, w121, 1001⟩,
   ⟨.id, w434, 1001⟩, ⟨.p, w42, 1001⟩, ⟨.p, w47, 1001⟩, ⟨.p, w19, 1001⟩, ⟨.str, w435, 1002⟩, ⟨.p, w126, 1002⟩,
   ⟨.str, w436, 1002⟩, ⟨.p, w86, 1002⟩, ⟨.p, w19, 1002⟩, ⟨.p, w25, 1002⟩, ⟨.str, w135, 1003⟩, ⟨.p, w126, 1003⟩,
   ⟨.str, w136, 1003⟩, ⟨.p, w126, 1003⟩, ⟨.str, w102, 1003⟩, ⟨.p, w126, 1003⟩, ⟨.str, w137, 1003⟩, ⟨.p, w126, 1003⟩,
   ⟨.str, w138, 1003⟩, ⟨.p, w126, 1003⟩, ⟨.str, w81, 1003⟩, ⟨.p, w86, 1003⟩, ⟨.p, w19, 1003⟩, ⟨.p, w25, 1003⟩,
   ⟨.str, w437, 1004⟩, ⟨.p, w126, 1004⟩, ⟨.str, w438, 1004⟩, ⟨.p, w126, 1004⟩, ⟨.str, w439, 1004⟩, ⟨.p, w126, 1004⟩,
   ⟨.str, w440, 1004⟩, ⟨.p, w126, 1004⟩, ⟨.str, w441, 1004⟩, ⟨.p, w126, 1004⟩, ⟨.str, w442, 1004⟩, ⟨.p, w86, 1004⟩,
   ⟨.p, w19, 1004⟩, ⟨.p, w25, 1004⟩, ⟨.id, w127, 1005⟩, ⟨.p, w86, 1005⟩, ⟨.id, w38, 1005⟩, ⟨.p, w42, 1005⟩,
   ⟨.id, w429, 1006⟩, ⟨.p, w121, 1006⟩, ⟨.id, w43, 1006⟩, ⟨.p, w42, 1006⟩, ⟨.p, w47, 1006⟩, ⟨.p, w21, 1006⟩,
   ⟨.id, w142, 1007⟩, ⟨.p, w1, 1007⟩, ⟨.p, w42, 1007⟩, ⟨.str, w443, 1007⟩, ⟨.p, w21, 1007⟩, ⟨.id, w127, 1007⟩,
   ⟨.p, w47, 1007⟩, ⟨.p, w21, 1007⟩, ⟨.p, w47, 1008⟩, ⟨.p, w144, 1008⟩, ⟨.p, w21, 1008⟩, ⟨.p, w25, 1009⟩,
   ⟨.p, w25, 1010⟩, ⟨.p, w25, 1011⟩, ⟨.id, w152, 1014⟩, ⟨.id, w157, 1014⟩, ⟨.id, w96, 1014⟩, ⟨.p, w42, 1014⟩,
   ⟨.id, w62, 1014⟩, ⟨.p, w47, 1014⟩, ⟨.p, w4, 1014⟩, ⟨.p, w83, 1014⟩, ⟨.p, w16, 1014⟩, ⟨.id, w120, 1014⟩,
   ⟨.p, w121, 1014⟩, ⟨.id, w62, 1014⟩, ⟨.p, w19, 1014⟩, ⟨.id, w212, 1015⟩, ⟨.p, w121, 1015⟩, ⟨.id, w146, 1015⟩,
   ⟨.p, w42, 1015⟩, ⟨.id, w120, 1015⟩, ⟨.p, w121, 1015⟩, ⟨.id, w62, 1015⟩, ⟨.p, w121, 1015⟩, ⟨.id, w43, 1015⟩,
   ⟨.p, w42, 1015⟩, ⟨.p, w47, 1015⟩, ⟨.p, w21, 1015⟩, ⟨.id, w62, 1015⟩, ⟨.p, w47, 1015⟩, ⟨.p, w144, 1015⟩,
   ⟨.p, w10, 1015⟩, ⟨.p, w25, 1016⟩, ⟨.id, w152, 1019⟩, ⟨.id, w157, 1019⟩, ⟨.id, w96, 1019⟩, ⟨.p, w42, 1019⟩,
   ⟨.id, w66, 1019⟩, ⟨.p, w47, 1019⟩, ⟨.p, w4, 1019⟩, ⟨.p, w83, 1019⟩, ⟨.p, w16, 1019⟩, ⟨.id, w120, 1019⟩,
   ⟨.p, w121, 1019⟩, ⟨.id, w66, 1019⟩, ⟨.p, w19, 1019⟩, ⟨.id, w212, 1020⟩, ⟨.p, w121, 1020⟩, ⟨.id, w131, 1020⟩,
   ⟨.p, w42, 1020⟩, ⟨.id, w120, 1020⟩, ⟨.p, w121, 1020⟩, ⟨.id, w66, 1020⟩, ⟨.p, w121, 1020⟩, ⟨.id, w43, 1020⟩,
   ⟨.p, w42, 1020⟩, ⟨.p, w47, 1020⟩, ⟨.p, w21, 1020⟩, ⟨.id, w66, 1020⟩, ⟨.p, w47, 1020⟩, ⟨.p, w144, 1020⟩,
   ⟨.p, w10, 1020⟩, ⟨.p, w25, 1021⟩, ⟨.id, w152, 1022⟩, ⟨.p, w16, 1022⟩, ⟨.id, w120, 1022⟩, ⟨.p, w121, 1022⟩,
   ⟨.id, w70, 1022⟩, ⟨.p, w19, 1022⟩, ⟨.id, w212, 1023⟩, ⟨.p, w121, 1023⟩, ⟨.id, w108, 1023⟩, ⟨.p, w4, 1023⟩,
   ⟨.id, w96, 1023⟩, ⟨.p, w42, 1023⟩, ⟨.id, w93, 1023⟩, ⟨.p, w13, 1023⟩, ⟨.id, w95, 1023⟩, ⟨.p, w47, 1023⟩,
   ⟨.p, w10, 1023⟩, ⟨.id, w213, 1024⟩, ⟨.p, w121, 1024⟩, ⟨.id, w186, 1024⟩, ⟨.p, w42, 1024⟩, ⟨.p, w42, 1024⟩,
   ⟨.id, w120, 1025⟩, ⟨.p, w121, 1025⟩, ⟨.id, w70, 1025⟩, ⟨.p, w121, 1025⟩, ⟨.id, w43, 1025⟩, ⟨.p, w42, 1025⟩,
   ⟨.p, w47, 1025⟩, ⟨.p, w21, 1025⟩, ⟨.str, w444, 1026⟩, ⟨.p, w21, 1027⟩, ⟨.p, w47, 1028⟩, ⟨.p, w47, 1028⟩,
   ⟨.p, w10, 1028⟩, ⟨.p, w25, 1029⟩, ⟨.id, w152, 1030⟩, ⟨.p, w16, 1030⟩, ⟨.id, w120, 1030⟩, ⟨.p, w121, 1030⟩,
   ⟨.id, w69, 1030⟩, ⟨.p, w19, 1030⟩, ⟨.id, w212, 1032⟩, ⟨.p, w121, 1032⟩, ⟨.id, w108, 1032⟩, ⟨.p, w4, 1032⟩,
   ⟨.id, w96, 1032⟩, ⟨.p, w42, 1032⟩, ⟨.id, w93, 1032⟩, ⟨.p, w13, 1032⟩, ⟨.id, w94, 1032⟩, ⟨.p, w47, 1032⟩,
   ⟨.p, w10, 1032⟩, ⟨.id, w213, 1033⟩, ⟨.p, w121, 1033⟩, ⟨.id, w186, 1033⟩, ⟨.p, w42, 1033⟩, ⟨.p, w42, 1033⟩,
   ⟨.id, w120, 1034⟩, ⟨.p, w121, 1034⟩, ⟨.id, w69, 1034⟩, ⟨.p, w121, 1034⟩, ⟨.id, w43, 1034⟩, ⟨.p, w42, 1034⟩,
   ⟨.p, w47, 1034⟩, ⟨.p, w21, 1034⟩, ⟨.str, w445, 1035⟩, ⟨.p, w21, 1036⟩, ⟨.p, w47, 1037⟩, ⟨.p, w47, 1037⟩,
   ⟨.p, w10, 1037⟩, ⟨.p, w25, 1038⟩, ⟨.p, w0, 1039⟩, ⟨.p, w2, 1039⟩, ⟨.id, w215, 1039⟩, ⟨.p, w42, 1039⟩,
   ⟨.id, w216, 1039⟩, ⟨.p, w4, 1039⟩, ⟨.str, w446, 1039⟩, ⟨.p, w47, 1039⟩, ⟨.p, w6, 1039⟩, ⟨.p, w19, 1040⟩,
   ⟨.id, w213, 1041⟩, ⟨.p, w121, 1041⟩, ⟨.id, w186, 1041⟩, ⟨.p, w42, 1041⟩, ⟨.p, w42, 1041⟩, ⟨.id, w422, 1042⟩,
   ⟨.p, w21, 1042⟩, ⟨.str, w447, 1043⟩, ⟨.p, w21, 1044⟩, ⟨.p, w47, 1045⟩, ⟨.p, w47, 1045⟩, ⟨.p, w10, 1045⟩,
   ⟨.p, w25, 1046⟩, ⟨.id, w201, 1049⟩, ⟨.id, w150, 1049⟩, ⟨.id, w202, 1049⟩, ⟨.p, w83, 1049⟩, ⟨.id, w428, 1049⟩,
   ⟨.p, w121, 1049⟩, ⟨.id, w109, 1049⟩, ⟨.p, w19, 1049⟩, ⟨.id, w212, 1050⟩, ⟨.p, w121, 1050⟩, ⟨.id, w149, 1050⟩,
   ⟨.p, w42, 1050⟩, ⟨.id, w150, 1050⟩, ⟨.p, w47, 1050⟩, ⟨.p, w144, 1050⟩, ⟨.p, w10, 1050⟩, ⟨.p, w25, 1051⟩,
   ⟨.id, w212, 1054⟩, ⟨.p, w121, 1054⟩, ⟨.id, w194, 1054⟩, ⟨.p, w42, 1054⟩, ⟨.p, w47, 1054⟩, ⟨.p, w144, 1054⟩,
   ⟨.p, w10, 1054⟩, ⟨.id, w145, 1057⟩, ⟨.p, w42, 1057⟩, ⟨.id, w211, 1057⟩, ⟨.p, w42, 1057⟩, ⟨.id, w212, 1057⟩,
   ⟨.p, w21, 1057⟩, ⟨.id, w213, 1057⟩, ⟨.p, w47, 1057⟩, ⟨.p, w121, 1057⟩, ⟨.id, w248, 1057⟩, ⟨.p, w42, 1057⟩,
   ⟨.p, w47, 1057⟩, ⟨.p, w47, 1057⟩, ⟨.p, w25, 1058⟩, ⟨.id, w156, 1058⟩, ⟨.p, w19, 1058⟩, ⟨.id, w38, 1059⟩,
   ⟨.p, w42, 1059⟩, ⟨.id, w118, 1059⟩, ⟨.p, w121, 1059⟩, ⟨.id, w43, 1059⟩, ⟨.p, w42, 1059⟩, ⟨.p, w47, 1059⟩,
   ⟨.p, w21, 1059⟩, ⟨.str, w448, 1059⟩, ⟨.p, w47, 1059⟩, ⟨.p, w25, 1060⟩, ⟨.p, w25, 1061⟩]

end Enumset.Src.DeriveRs
