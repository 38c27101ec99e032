import Verif.Props.SrcGenAll
/-!
# C74: the functions for serde that the derive macro writes

The functions of the `quote!`s of lib.rs:429-644 (`serdeTok`), written out, and calls of serde from them.
Citations `lib.rs` are to `enumset_derive/src/lib.rs`.
-/
set_option autoImplicit false
set_option linter.unusedSimpArgs false
set_option linter.unusedSectionVars false
set_option maxRecDepth 10000

namespace Enumset.Src
open DeriveRs

/-- The head of `serialize`. -/
def serDecl (body : List Stmt) : FnDecl :=
  ⟨[], [], [("set", setTy), ("ser", .name "S" [])], .name "Result" [.name "S::Ok" [], .name "S::Error" []], body⟩
/-- The head of `deserialize`. -/
def deDecl (body : List Stmt) : FnDecl :=
  ⟨[], [], [("de", .name "D" [])], .name "Result" [setTy, .name "D::Error" []], body⟩
/-- The head of `visit_seq` and `visit_map`; `x` is the name of the access. -/
def visitDecl (x : String) (body : List Stmt) : FnDecl :=
  ⟨[], [], [("self", .name "Self" []), (x, .name "A" [])],
    .name "Result" [.name "Self::Value" [], .name "A::Error" []], body⟩

/-- `expecting` -/
def expectDecl (s : String) : FnDecl :=
  ⟨[], [], [("self", .ref (.name "Self" [])), ("formatter", .refMut (.name "Formatter" []))], .name "Result" [],
    [.tail (.mcall (.var "formatter") "write_fmt" [] [.str s])]⟩

/-- lib.rs:456-462 -/
def intSer (repr : String) (n : NumTy) : FnDecl := serDecl
  [.let (.var "value") none (.pcall repr ("to_" ++ NumTy.name n) [] [.un .ref (privRepr "set")]),
   .tail (.pcall "Serialize" "serialize" [] [.un .ref (.var "value"), .var "ser"])]

/-- lib.rs:445-450 -/
def checkStmt (all : Expr) : Stmt :=
  .semi (.ite (.bin .ne (.bin .band (.var "value") (.un .not all)) (.lit 0))
    (.block [.tail (.ret (.err (.pcall "D::Error" "custom" [] [.str "enumset contains unknown bits"])))]) (.block []))
/-- lib.rs:463-472 -/
def intDe (repr : String) (n : NumTy) (deny : Bool) (all : Expr) : FnDecl := deDecl
  ([.let (.var "value") none (.try (.pcall (NumTy.name n) "deserialize" [] [.var "de"]))] ++
   (if deny then [checkStmt all] else []) ++
   [.let (.var "value") none (.pcall repr ("from_" ++ NumTy.name n) [] [.var "value"]),
    .tail (.ok (mkSet (.bin .band (.var "value") all)))])

/-- lib.rs:478-487 and lib.rs:518-527 -/
def loopSer (x begin item : String) (args : List Expr) : FnDecl := serDecl
  [.let (.var x) none (.try (.mcall (.var "ser") begin [] [.some (.mcall (.var "set") "len" [] [])])),
   .semi (.for (.var "bit") (.mcall (.var "set") "into_iter" [] [])
    (.block [.semi (.try (.mcall (.var x) item [] args))])),
   .tail (.mcall (.var x) "end" [] [])]
/-- lib.rs:478-487 -/
def listSer : FnDecl := loopSer "seq" "serialize_seq" "serialize_element" [.un .ref (.var "bit")]
/-- lib.rs:518-527 -/
def mapSer : FnDecl := loopSer "map" "serialize_map" "serialize_entry" [.un .ref (.var "bit"), .un .ref (.bool true)]

/-- lib.rs:488-512 and the like: `de.deserialize_seq(Visitor { })` -/
def visitorDe (f : String) : FnDecl := deDecl [.tail (.mcall (.var "de") f [] [.struct "Visitor" [] []])]

/-- lib.rs:499-509 -/
def listVisit : FnDecl := visitDecl "seq"
  [.let (.var "accum") none (.pcall "EnumSet" "new" [] []),
   .semi (.whileLet (.some (.var "val")) (.try (.mcall (.var "seq") "next_element::<T>" [] []))
    (.block [.semi (.assignOp .bor (.var "accum") (.var "val"))])),
   .tail (.ok (.var "accum"))]
/-- lib.rs:539-553 -/
def mapVisit : FnDecl := visitDecl "map"
  [.let (.var "accum") none (.pcall "EnumSet" "new" [] []),
   .semi (.whileLet (.some (.tup [.var "val", .var "is_present"]))
    (.try (.mcall (.var "map") "next_entry::<T, bool>" [] []))
    (.block [.tail (.ite (.var "is_present") (.block [.semi (.assignOp .bor (.var "accum") (.var "val"))])
      (.block []))])),
   .tail (.ok (.var "accum"))]

/-- `T::Repr::PREFERRED_ARRAY_LEN` -/
def prefLen : Expr := .path "T::Repr" "PREFERRED_ARRAY_LEN"

/-- lib.rs:595-602 -/
def trimFor : Expr :=
  .for (.var "i") (.mcall (.mcall (.range (.lit 0) (.mcall (.var "array") "len" [] [])) "rev" [] []) "into_iter" [] [])
    (.block [.semi (.ite (.bin .ne (.index (.var "array") (.var "i")) (.lit 0)) (.block [.semi .brk]) (.block [])),
      .semi (.assign (.var "end") (.bin .add (.var "i") (.lit 1)))])
/-- lib.rs:588-605 -/
def arrSer : FnDecl := serDecl
  [.let (.var "array") none (.block [.let (.var "{const}") (some (.name "usize" [])) prefLen,
    .tail (.mcall (.var "set") "as_array" ["{const}"] [])]),
   .let (.var "end") none (.mcall (.var "array") "len" [] []),
   .semi trimFor,
   .tail (.pcall "Serialize" "serialize" [] [.un .ref (.sliceTo (.var "array") (.var "end")), .var "ser"])]

/-- lib.rs:624-632 -/
def fillWhile : Expr :=
  .whileLet (.some (.var "val")) (.try (.mcall (.var "seq") "next_element::<u64>" [] []))
    (.block [.semi (.assign (.index (.var "accum") (.var "i")) (.var "val")),
      .semi (.assignOp .add (.var "i") (.lit 1)),
      .tail (.ite (.bin .eq (.var "i") (.mcall (.var "accum") "len" [] [])) (.block [.semi .brk]) (.block []))])
/-- lib.rs:633-635 without `serialize_deny_unknown` -/
def drainWhile : Expr :=
  .whileLet (.some (.var "_val")) (.try (.mcall (.var "seq") "next_element::<u64>" [] [])) (.block [])
/-- lib.rs:617-638 without `serialize_deny_unknown` -/
def arrVisit : FnDecl := visitDecl "seq"
  [.let (.var "accum") (some (.arr (.name "u64" []) "N")) (.repeat (.lit 0) prefLen),
   .let (.var "i") (some (.name "usize" [])) (.lit 0),
   .semi fillWhile, .semi drainWhile,
   .tail (.ok (.pcall "EnumSet" "from_array" [] [.var "accum"]))]

section
variable [Platform] {info : EnumSetInfo} (hs : Platform.serde = true)
include hs

theorem serdeFns_num {n : NumTy} (h : info.serde_repr.numTy = some n) :
    (serdeFns info).lookup ("T", "serialize") = some (intSer (reprTy info.internal_repr).head n) ∧
    (serdeFns info).lookup ("T", "deserialize") = some (intDe (reprTy info.internal_repr).head n
      info.serialize_deny_unknown (allExpr info.variant_map info.internal_repr)) := by
  have e : ∀ (sr ff tf : Val Code) (d : Bool), implFns [] "T" (toItems (s18.quote [nameTok "T", reprTok info.internal_repr, tf, sr,
    if d then s16.quote [allTok info.variant_map info.internal_repr] else s17.quote [], ff, allTok info.variant_map info.internal_repr])) =
      [(("T", "serialize"), serDecl
        [.let (.var "value") none (.pcall (Sub.name [("#repr", reprTok info.internal_repr)] "#repr") (Sub.name [("#to_fn", tf)] "#to_fn") [] [.un .ref (privRepr "set")]),
          .tail (.pcall "Serialize" "serialize" [] [.un .ref (.var "value"), .var "ser"])]),
       (("T", "deserialize"), deDecl
        ([.let (.var "value") none (.try (.pcall (Sub.name [("#serialize_repr", sr)] "#serialize_repr") "deserialize" [] [.var "de"]))] ++
          (if d then [checkStmt (toExpr (allTok info.variant_map info.internal_repr))] else []) ++
          [.let (.var "value") none (.pcall (Sub.name [("#repr", reprTok info.internal_repr)] "#repr") (Sub.name [("#from_fn", ff)] "#from_fn") [] [.var "value"]),
           .tail (.ok (mkSet (.bin .band (.var "value") (toExpr (allTok info.variant_map info.internal_repr)))))]))] := by
    intro sr ff tf d
    cases d <;> rfl
  have hr : Sub.name [("#repr", reprTok info.internal_repr)] "#repr" = (reprTy info.internal_repr).head := by
    cases info.internal_repr <;> rfl
  unfold serdeFns serdeItems serdeTok
  rw [if_pos hs]
  unfold serdeOnTok
  cases hr' : info.serde_repr <;> rw [hr'] at h <;> cases h <;>
    (simp only [serdeNumTok]; rw [e, hr, toExpr_all]; exact ⟨rfl, rfl⟩)

theorem serdeFns_list (h : info.serde_repr = .list) :
    (serdeFns info).lookup ("T", "serialize") = some listSer ∧
    (serdeFns info).lookup ("T", "deserialize") = some (visitorDe "deserialize_seq") ∧
    (serdeFns info).lookup ("Visitor", "visit_seq") = some listVisit ∧
    (serdeFns info).lookup ("Visitor", "expecting") = some (expectDecl "a list of T") := by
  unfold serdeFns serdeItems serdeTok
  rw [if_pos hs, serdeOnTok, h]
  exact ⟨rfl, rfl, rfl, rfl⟩
theorem serdeFns_map (h : info.serde_repr = .map) :
    (serdeFns info).lookup ("T", "serialize") = some mapSer ∧
    (serdeFns info).lookup ("T", "deserialize") = some (visitorDe "deserialize_map") ∧
    (serdeFns info).lookup ("Visitor", "visit_map") = some mapVisit ∧
    (serdeFns info).lookup ("Visitor", "expecting") = some (expectDecl "a map from T to bool") := by
  unfold serdeFns serdeItems serdeTok
  rw [if_pos hs, serdeOnTok, h]
  exact ⟨rfl, rfl, rfl, rfl⟩
theorem serdeFns_array (h : info.serde_repr = .array) :
    (serdeFns info).lookup ("T", "serialize") = some arrSer ∧
    (info.serialize_deny_unknown = false →
      (serdeFns info).lookup ("T", "deserialize") = some (visitorDe "deserialize_seq") ∧
      (serdeFns info).lookup ("Visitor", "visit_seq") = some arrVisit ∧
      (serdeFns info).lookup ("Visitor", "expecting") = some (expectDecl "a list of u64")) := by
  unfold serdeFns serdeItems serdeTok
  rw [if_pos hs, serdeOnTok, h]
  refine ⟨?_, fun hd => ?_⟩
  · cases info.serialize_deny_unknown <;> rfl
  · rw [hd]; exact ⟨rfl, rfl, rfl⟩
end

/-! ### calls of serde -/

section
variable [Platform] {n : Nat} {G : Gen n}

/-- A call of a function of serde. -/
theorem lib_call {ty f : String} {fn : Fn (Fin n)} (k j : Nat) (caller : Env (Fin n))
    (consts args : List (Val (Fin n)))
    (h : fnDecl ty f = none) (hd : derivedFn (H := Fin n) derives ty f = none) (he : G.enum.fn ty f = none)
    (hi : (itemFns G.items).lookup (ty, f) = none) (hl : G.lib.fn ((G.toProg k).link k) ty f = some fn) :
    (G.toProg (k + 1)).call j ty f caller consts args = fn caller consts args := by
  refine base_call j caller consts args h hd ?_
  show G.base (k + 1) ty f = _
  rw [Gen.base, he, hi]
  exact hl

/-- There are no functions of serde among the items. -/
def NoSerde (items : List Item) : Prop :=
  ∀ ty f, ["T", "Visitor", "__EnumSetConstHelper", "crate"].contains ty = false → (itemFns items).lookup (ty, f) = none

theorem gen_noSerde (info : EnumSetInfo) (ws : List (Span × String)) : NoSerde (genItems info ws) := by
  intro ty f h
  have key : ∀ l : List ((String × String) × FnDecl),
      (l.all fun p => ["T", "Visitor", "__EnumSetConstHelper", "crate"].contains p.1.1) = true → l.lookup (ty, f) = none := by
    intro l hl
    induction l with
    | nil => rfl
    | cons x l ih =>
      simp only [List.all_cons, Bool.and_eq_true] at hl
      obtain ⟨⟨a, b⟩, d⟩ := x
      rw [List.lookup_cons]
      have : ((ty, f) == (a, b)) = false := by
        rw [beq_eq_false_iff_ne]
        intro e
        injection e with e _
        subst e
        rw [h] at hl; exact absurd hl.1 (by decide)
      rw [this]
      exact ih hl.2
  apply key
  have hs : ((serdeFns info).all fun p => ["T", "Visitor", "__EnumSetConstHelper", "crate"].contains p.1.1) = true := by
    unfold serdeFns serdeItems serdeTok
    split
    · unfold serdeOnTok
      split <;> rfl
    · rfl
  rw [genFns, List.all_append, List.all_append, hs]
  cases info.no_super_impls <;> cases info.no_ops <;> rfl

/-- No generated struct but `__EnumSetConstHelper` and `Visitor`. -/
def NoStructs (items : List Item) : Prop :=
  ∀ s, s ≠ "Visitor" → s ≠ "__EnumSetConstHelper" → s ∉ itemStructs items

theorem gen_noStructs (info : EnumSetInfo) (ws : List (Span × String)) : NoStructs (genItems info ws) := by
  intro s h1 h2 h
  have := gen_structs info ws (s := s) (by simpa using h1)
  rw [List.contains_iff_mem.2 h] at this
  exact h2 (by simpa using this.symm)

section calls
variable (hn : NoSerde G.items) (k j : Nat) (caller : Env (Fin n)) (st : Val (Fin n))
include hn

theorem lib_serialize_num (t : NumTy) (x : BitVec t.bits) :
    (G.toProg (k + 1)).call j "Serialize" "serialize" caller [] [bv t x, .struct "Serializer" [("0", st)]] =
      .ok (serEnd (G.lib.ser.serialize_num t x st), []) := by
  refine (lib_call k j caller [] _ rfl rfl rfl (hn _ _ rfl) rfl).trans ?_
  show Res.ok (serEnd (G.lib.ser.serialize_num t (BitVec.ofNat t.bits x.toNat) st), []) = _
  simp
theorem wordsOf_words {H : Type} (l : List U64) : wordsOf (l.map word : List (Val H)) = some l := by
  induction l with
  | nil => rfl
  | cons x l ih =>
    show (wordsOf (l.map word)).map (BitVec.ofNat 64 x.toNat :: ·) = _
    rw [ih]; simp
theorem lib_serialize_words (l : List U64) :
    (G.toProg (k + 1)).call j "Serialize" "serialize" caller [] [words l, .struct "Serializer" [("0", st)]] =
      .ok (serEnd (G.lib.ser.serialize_words l st), []) := by
  refine (lib_call k j caller [] _ rfl rfl rfl (hn _ _ rfl) rfl).trans ?_
  show (need (wordsOf (l.map word)) >>= fun ws => Res.ok (serEnd (G.lib.ser.serialize_words ws st), [])) = _
  rw [wordsOf_words hn]; rfl
theorem lib_serialize_seq (i : Nat) :
    (G.toProg (k + 1)).call j "Serializer" "serialize_seq" caller []
      [.struct "Serializer" [("0", st)], .some (.int .usize i)] =
      .ok (serBegin "SerializeSeq" (G.lib.ser.serialize_seq (some i) st), []) :=
  (lib_call k j caller [] _ rfl rfl rfl (hn _ _ rfl) rfl).trans rfl
theorem lib_serialize_map (i : Nat) :
    (G.toProg (k + 1)).call j "Serializer" "serialize_map" caller []
      [.struct "Serializer" [("0", st)], .some (.int .usize i)] =
      .ok (serBegin "SerializeMap" (G.lib.ser.serialize_map (some i) st), []) :=
  (lib_call k j caller [] _ rfl rfl rfl (hn _ _ rfl) rfl).trans rfl
theorem lib_serialize_element (v : Fin n) :
    (G.toProg (k + 1)).call j "SerializeSeq" "serialize_element" caller []
      [.struct "SerializeSeq" [("0", st)], .host "T" v] =
      .ok (serStep "SerializeSeq" (G.lib.ser.serialize_element v st)) :=
  (lib_call k j caller [] _ rfl rfl rfl (hn _ _ rfl) rfl).trans rfl
theorem lib_serialize_entry (v : Fin n) (b : Bool) :
    (G.toProg (k + 1)).call j "SerializeMap" "serialize_entry" caller []
      [.struct "SerializeMap" [("0", st)], .host "T" v, .bool b] =
      .ok (serStep "SerializeMap" (G.lib.ser.serialize_entry v b st)) :=
  (lib_call k j caller [] _ rfl rfl rfl (hn _ _ rfl) rfl).trans rfl
theorem lib_seq_end :
    (G.toProg (k + 1)).call j "SerializeSeq" "end" caller [] [.struct "SerializeSeq" [("0", st)]] =
      .ok (serEnd (G.lib.ser.seq_end st), []) :=
  (lib_call k j caller [] _ rfl rfl rfl (hn _ _ rfl) rfl).trans rfl
theorem lib_map_end :
    (G.toProg (k + 1)).call j "SerializeMap" "end" caller [] [.struct "SerializeMap" [("0", st)]] =
      .ok (serEnd (G.lib.ser.map_end st), []) :=
  (lib_call k j caller [] _ rfl rfl rfl (hn _ _ rfl) rfl).trans rfl
theorem lib_next_variant :
    (G.toProg (k + 1)).call j "SeqAccess" "next_element::<T>" caller [] [.struct "SeqAccess" [("0", st)]] =
      .ok (accessStep "SeqAccess" (.host "T") (G.lib.nextVariant st)) :=
  (lib_call k j caller [] _ rfl rfl rfl (hn _ _ rfl) rfl).trans rfl
theorem lib_next_word :
    (G.toProg (k + 1)).call j "SeqAccess" "next_element::<u64>" caller [] [.struct "SeqAccess" [("0", st)]] =
      .ok (accessStep "SeqAccess" word (G.lib.nextWord st)) :=
  (lib_call k j caller [] _ rfl rfl rfl (hn _ _ rfl) rfl).trans rfl
theorem lib_next_entry :
    (G.toProg (k + 1)).call j "MapAccess" "next_entry::<T, bool>" caller [] [.struct "MapAccess" [("0", st)]] =
      .ok (accessStep "MapAccess" (fun x => .tup [.host "T" x.1, .bool x.2]) (G.lib.nextEntry st)) :=
  (lib_call k j caller [] _ rfl rfl rfl (hn _ _ rfl) rfl).trans rfl
theorem lib_custom (s : String) :
    (G.toProg (k + 1)).call j "D::Error" "custom" caller [] [.str s] = .ok (G.lib.custom s, []) :=
  (lib_call k j caller [] _ rfl rfl rfl (hn _ _ rfl) rfl).trans rfl
theorem lib_deNum (t : NumTy) :
    (G.toProg (k + 1)).call j (NumTy.name t) "deserialize" caller [] [.struct "Deserializer" [("0", st)]] =
      match G.lib.deNum t st with
      | .ok x => .ok (.ok (bv t x), [])
      | .error e => .ok (.err e, []) := by
  cases t <;> refine (lib_call k j caller [] _ rfl rfl rfl (hn _ _ rfl) rfl).trans ?_ <;> simp only <;>
    cases G.lib.deNum _ st <;> rfl
theorem lib_deSeq (v : Val (Fin n)) :
    (G.toProg (k + 1)).call j "Deserializer" "deserialize_seq" caller [] [.struct "Deserializer" [("0", st)], v] =
      match G.lib.deSeq st with
      | .error e => (G.toProg k).call k v.tag "expecting" caller [] [v, message ""] >>= G.lib.fails st e
      | .ok st' => (G.toProg k).call k v.tag "visit_seq" caller [] [v, .struct "SeqAccess" [("0", st')]] >>= fun r =>
        .ok (G.lib.after st r.1, []) := by
  refine (lib_call k j caller [] _ rfl rfl rfl (hn _ _ rfl) rfl).trans ?_
  simp only
  cases G.lib.deSeq st with
  | error e => simp only [Prog.call, bind_assoc]
  | ok st => simp only [Prog.call, bind_assoc]
theorem lib_deMap (v : Val (Fin n)) :
    (G.toProg (k + 1)).call j "Deserializer" "deserialize_map" caller [] [.struct "Deserializer" [("0", st)], v] =
      match G.lib.deMap st with
      | .error e => (G.toProg k).call k v.tag "expecting" caller [] [v, message ""] >>= G.lib.fails st e
      | .ok st' => (G.toProg k).call k v.tag "visit_map" caller [] [v, .struct "MapAccess" [("0", st')]] >>= fun r =>
        .ok (G.lib.after st r.1, []) := by
  refine (lib_call k j caller [] _ rfl rfl rfl (hn _ _ rfl) rfl).trans ?_
  simp only
  cases G.lib.deMap st with
  | error e => simp only [Prog.call, bind_assoc]
  | ok st => simp only [Prog.call, bind_assoc]

/-! ### calls of `core` -/

theorem lib_message (s s' : String) :
    (G.toProg (k + 1)).call j "Message" "write_fmt" caller [] [message s, .str s'] =
      .ok (.ok .unit, [(0, message (s ++ s'))]) :=
  (lib_call k j caller [] _ rfl rfl rfl (hn _ _ rfl) rfl).trans rfl
theorem lib_write_str (s : String) :
    (G.toProg (k + 1)).call j "Formatter" "write_str" caller [] [.struct "Formatter" [("0", st)], .str s] =
      .ok (fmtResult (G.lib.write_str st s).1, [(0, .struct "Formatter" [("0", (G.lib.write_str st s).2)])]) :=
  (lib_call k j caller [] _ rfl rfl rfl (hn _ _ rfl) rfl).trans rfl
theorem lib_user_into_iter (it : Val (Fin n)) :
    (G.toProg (k + 1)).call j "UserIter" "into_iter" caller [] [it] = .ok (it, []) :=
  (lib_call k j caller [] _ rfl rfl rfl (hn _ _ rfl) rfl).trans rfl
theorem lib_user_next :
    (G.toProg (k + 1)).call j "UserIter" "next" caller [] [.struct "UserIter" [("0", st)]] =
      G.lib.next caller st >>= fun r => .ok (opt id r.1, [(0, .struct "UserIter" [("0", r.2)])]) := by
  refine (lib_call k j caller [] _ rfl rfl rfl (hn _ _ rfl) rfl).trans ?_
  show (G.lib.next caller st >>= _) = _
  refine bind_congr fun r => ?_
  rcases r with ⟨_ | _, _⟩ <;> rfl
omit hn in
theorem lib_fmt (hf : (itemFns G.items).lookup ("T", "fmt") = none) (v : Fin n) :
    (G.toProg (k + 1)).call j "T" "fmt" caller [] [.host "T" v, .struct "Formatter" [("0", st)]] =
      .ok (fmtResult (G.lib.fmtVariant v st).1, [(1, .struct "Formatter" [("0", (G.lib.fmtVariant v st).2)])]) :=
  (lib_call k j caller [] _ rfl rfl rfl hf rfl).trans rfl
theorem lib_hash_num (t : NumTy) (x : BitVec t.bits) :
    (G.toProg (k + 1)).call j (NumTy.name t) "hash" caller [] [bv t x, .struct "Hasher" [("0", st)]] =
      .ok (.unit, [(1, .struct "Hasher" [("0", [HashWrite.int t.bits x.toNat].foldl (fun st w => G.lib.hashWrite w st) st)])]) := by
  cases t <;> exact (lib_call k j caller [] _ rfl rfl rfl (hn _ _ rfl) rfl).trans rfl
theorem lib_hash_array {N : Nat} (a : ArrayRepr N) :
    (G.toProg (k + 1)).call j "ArrayRepr" "hash" caller [] [arrayRepr a, .struct "Hasher" [("0", st)]] =
      .ok (.unit, [(1, .struct "Hasher" [("0", [HashWrite.lenPrefix N, .words a.a.toList].foldl (fun st w => G.lib.hashWrite w st) st)])]) := by
  refine (lib_call k j caller [] _ rfl rfl rfl (hn _ _ rfl) rfl).trans ?_
  have : hashVal (derives · "Hash") (arrayRepr a : Val (Fin n)) = .ok [HashWrite.lenPrefix N, .words a.a.toList] := by
    have hd : derives "ArrayRepr" "Hash" = true := by rfl
    simp only [arrayRepr, vec, words, hashVal, hashFields, hd, if_true, wordsOf_words hn]
    simp [Res.ok_bind]
  show (hashVal (derives · "Hash") (arrayRepr a) >>= _) = _
  rw [this]; rfl

end calls

/-- The derive macro writes no `fmt`. -/
theorem gen_no_fmt (info : EnumSetInfo) (ws : List (Span × String)) :
    (itemFns (genItems info ws)).lookup ("T", "fmt") = none :=
  gen_lookup_none ws rfl rfl rfl rfl rfl (serdeFns_none rfl)
end
end Enumset.Src
