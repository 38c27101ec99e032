import Verif.SpecText
import Verif.Props.SrcSerdeHistory
/-!
# C75: what the libraries of SpecText.lean keep and yield
-/
set_option autoImplicit false
set_option maxRecDepth 10000
set_option linter.unusedSectionVars false

namespace Enumset.Hist
open Src (Val Prog variant SerdeLib readAll readUpTo fetch)

section
variable {n : Nat}

theorem decodeAll_map [Platform] {α : Type} {dec : Val (Fin n) → Option α} {enc : α → Val (Fin n)} (h : ∀ a, dec (enc a) = some a)
    (l : List α) : decodeAll dec (l.map enc) = .ok l := by
  induction l with
  | nil => rfl
  | cons a l ih => rw [List.map_cons, decodeAll, h]; simp only [ih, Res.ok_bind]

/-! ### formatting -/

theorem formatStr_eq [Platform] (names : Fin n → String) (t s : String) :
    formatStr (formatter names t) s = (true, formatter names (t ++ s)) := rfl
theorem formatVariant_eq [Platform] (names : Fin n → String) (v : Fin n) (t : String) :
    formatVariant v (formatter names t) = (true, formatter names (t ++ names v)) := by
  simp [formatVariant, formatter]

/-! ### hashing -/

theorem wordsOf_u64s (l : List U64) : Src.wordsOf (l.map fun w => .int .u64 w.toNat : List (Val (Fin n))) = some l := by
  induction l with
  | nil => rfl
  | cons x l ih =>
    rw [List.map_cons, Src.wordsOf, ih]; simp

theorem readCall_eq [Platform] (w : HashWrite) : readCall (hashCall w : Val (Fin n)) = some w := by
  cases w with
  | int w x => rfl
  | lenPrefix m => rfl
  | words ws => simp only [hashCall, u64s, readCall, wordsOf_u64s]; rfl

theorem push_all [Platform] (l : List HashWrite) (xs : List (Val (Fin n))) :
    l.foldl (fun st w => push (hashCall w) st) (.arr xs) = .arr (xs ++ l.map hashCall) := by
  induction l generalizing xs with
  | nil => simp
  | cons w l ih => rw [List.foldl_cons, push, ih]; simp

/-! ### serializing -/

variable [Platform]

theorem callAll_record {α : Type} (fin : Val (Fin n) → Except (Val (Fin n)) (Val (Fin n)) × Val (Fin n)) (enc : α → Val (Fin n))
    (tag : String) (len : Option Nat) (l : List α) (xs : List (Val (Fin n))) :
    callAll fin (l.map fun a st => (.ok (), recordItem (enc a) st)) (record tag len xs) =
      fin (record tag len (xs ++ l.map enc)) := by
  induction l generalizing xs with
  | nil => simp [callAll]
  | cons a l ih =>
    rw [List.map_cons, callAll]
    show callAll fin (l.map _) (record tag len (xs ++ [enc a])) = _
    rw [ih]; simp

theorem readEntry_eq (x : Fin n × Bool) : readEntry (entryVal x) = some x := rfl
theorem readVariant_eq (v : Fin n) : readVariant (variant v) = some v := rfl
theorem readWord_eq (w : U64) : readWord (.int .u64 w.toNat : Val (Fin n)) = some w := by simp [readWord]

/-- What the recording serializer returns is the data. -/
theorem readData_handTo {T : EnumSetType} (v : SerValue T.Val) :
    ∃ x st, Src.serEnd (v.handTo recorder .unit) = .ok (.tup [x, st]) ∧ readData x = .ok (serObs rfl v) := by
  cases v with
  | int t x => exact ⟨_, _, rfl, by simp [readData, serObs]⟩
  | seq len vs =>
    refine ⟨record "seq" (some len) (vs.map variant), record "seq" (some len) (vs.map variant), ?_, ?_⟩
    · rw [SerValue.handTo]
      show Src.serEnd (callAll recorder.seq_end (vs.map fun v st => (.ok (), recordItem (variant v) st)) (record "seq" (some len) [])) = _
      rw [callAll_record]; rfl
    · show (decodeAll readVariant (vs.map variant) >>= fun vs => Res.ok (Obs.data (some len) (Data.seq vs))) = _
      rw [decodeAll_map readVariant_eq]
      simp only [serObs, ofVal_self, List.map_id, Res.ok_bind]
  | map len es =>
    refine ⟨record "map" (some len) (es.map entryVal), record "map" (some len) (es.map entryVal), ?_, ?_⟩
    · rw [SerValue.handTo]
      show Src.serEnd (callAll recorder.map_end (es.map fun x st => (.ok (), recordItem (entryVal (x.1, x.2)) st)) (record "map" (some len) [])) = _
      rw [callAll_record]; rfl
    · show (decodeAll readEntry (es.map entryVal) >>= fun vs => Res.ok (Obs.data (some len) (Data.map vs))) = _
      rw [decodeAll_map readEntry_eq]
      simp only [serObs, ofVal_self, id, Res.ok_bind]
      rw [show es.map (fun x => (x.1, x.2)) = es from List.map_id _]
  | words ws =>
    refine ⟨_, _, rfl, ?_⟩
    show (decodeAll readWord (ws.map fun w => .int .u64 w.toNat) >>= fun ws => Res.ok (Obs.data none (Data.words ws))) = _
    rw [decodeAll_map readWord_eq]; rfl

/-! ### deserializing -/

theorem words_pos (inp : DeriveInput) : 0 < (storageOf inp).words := by
  unfold storageOf
  split
  · split
    · rename_i w h
      unfold intWidth at h
      repeat' split at h
      all_goals first | (injection h with h; subst h; decide) | cases h
    · exact Nat.succ_pos _
  · split
    · rename_i w h
      have := List.mem_of_find?_eq_some h
      simp only [List.mem_cons, List.not_mem_nil, or_false] at this
      rcases this with rfl | rfl | rfl | rfl <;> decide
    · exact Nat.succ_pos _

section items
variable {α : Type} {tag : String} {dec : Val (Fin n) → Option α} {enc : α → Val (Fin n)} (h : ∀ a, dec (enc a) = some a)

/-- The rest of the items of a sequence. -/
def rest (tag : String) (xs : List (Val (Fin n))) (b : Bool) : Val (Fin n) := .tup [.struct tag [("0", .arr xs)], .bool b]

theorem takeItem_nil (b : Bool) : takeItem tag dec (rest tag [] b) = (if b then .error brokenOff else .ok none, rest tag [] b) := by
  simp [takeItem, rest]
include h in
theorem takeItem_cons (a : α) (l : List α) (b : Bool) :
    takeItem tag dec (rest tag (enc a :: l.map enc) b) = (.ok (some a), rest tag (l.map enc) b) := by
  simp [takeItem, rest, h]
theorem takeItem_wrong {tag' : String} (ht : tag' ≠ tag) (xs : List (Val (Fin n))) (b : Bool) :
    (takeItem tag dec (rest tag' xs b)).1 = .error invalidType := by
  simp [takeItem, rest, ht]
theorem takeItem_int (x : Val (Fin n)) (hx : ∀ xs, x ≠ .arr xs) (tag' : String) (b : Bool) :
    (takeItem tag dec (.tup [.struct tag' [("0", x)], .bool b])).1 = .error invalidType := by
  unfold takeItem
  split
  · rename_i heq; simp at heq; exact absurd heq.1.2 (hx _)
  · rfl

include h in
theorem readAll_items (l : List α) (b : Bool) {fuel : Nat} (hf : l.length < fuel) :
    readAll (takeItem tag dec) fuel (rest tag (l.map enc) b) = .ok (if b then .error brokenOff else .ok l) := by
  induction l generalizing fuel with
  | nil =>
    obtain ⟨f, rfl⟩ : ∃ f, fuel = f + 1 := ⟨fuel - 1, by omega⟩
    rw [readAll, List.map_nil, takeItem_nil]
    cases b <;> rfl
  | cons a l ih =>
    obtain ⟨f, rfl⟩ : ∃ f, fuel = f + 1 := ⟨fuel - 1, by omega⟩
    rw [readAll, List.map_cons, takeItem_cons h]
    simp only [ih (by simpa using hf), Res.ok_bind]
    cases b <;> rfl

theorem readAll_error {E σ : Type} {next : Access E α σ} {st : σ} {e : E} (he : (next st).1 = .error e) {fuel : Nat} (hf : 0 < fuel) :
    readAll next fuel st = .ok (.error e) := by
  obtain ⟨f, rfl⟩ : ∃ f, fuel = f + 1 := ⟨fuel - 1, by omega⟩
  rw [readAll]
  rcases hn : next st with ⟨r, st'⟩
  rw [hn] at he
  cases he
  rfl
theorem readUpTo_error {E σ : Type} {next : Access E α σ} {st : σ} {e : E} (he : (next st).1 = .error e) {k : Nat} (hk : 0 < k) :
    readUpTo next k st = .error e := by
  obtain ⟨f, rfl⟩ : ∃ f, k = f + 1 := ⟨k - 1, by omega⟩
  rw [readUpTo]
  rcases hn : next st with ⟨r, st'⟩
  rw [hn] at he
  cases he
  rfl

include h in
theorem readUpTo_items (k : Nat) (l : List α) (b : Bool) :
    readUpTo (takeItem tag dec) k (rest tag (l.map enc) b) =
      if b = true ∧ l.length < k then .error brokenOff else .ok (l.take k, rest tag ((l.drop k).map enc) b) := by
  induction k generalizing l with
  | zero => simp [readUpTo]
  | succ k ih =>
    rw [readUpTo]
    cases l with
    | nil =>
      rw [List.map_nil, takeItem_nil]
      cases b <;> simp
    | cons a l =>
      rw [List.map_cons, takeItem_cons h]
      simp only [ih]
      by_cases hb : b = true ∧ l.length < k
      · rw [if_pos hb, if_pos ⟨hb.1, by simpa using hb.2⟩]; rfl
      · rw [if_neg hb, if_neg (fun h => hb ⟨h.1, by simpa using h.2⟩)]; rfl
end items

/-- What `fetch` gives for data: an error if it has the wrong form or breaks off, and otherwise data that means the
same. -/
inductive Fetched (d : Fin n → Nat) (lay : Layout) : Read n → Res (Except (Val (Fin n)) (Data n)) → Prop where
  | wrong : Fetched d lay .unavailable (.ok (.error invalidType))
  | broken : Fetched d lay (.refused false) (.ok (.error brokenOff))
  | data (y : Data n) : y.read d lay false ≠ .unavailable → y.read d lay false ≠ .refused false → Fetched d lay (y.read d lay false) (.ok (.ok y))

theorem fetched {d : Fin n → Nat} {lay : Layout} (hc : lay.serializable = true) (hw : ∀ w, lay.format = .int w → ∃ t, numOfWidth w = some t)
    (hp : 0 < lay.storage.words) (x : Data n) (b : Bool) {fuel : Nat} (hf : x.items < fuel) :
    Fetched d lay (x.read d lay b) (fetch histLib fuel lay (x.value b)) := by
  have h0 : 0 < fuel := by omega
  have hwords : ∀ ws : List U64, (u64s ws : Val (Fin n)) = .arr (ws.map fun w => .int .u64 w.toNat) := fun _ => rfl
  unfold fetch Data.read
  rw [hc, if_pos rfl]
  cases hfm : lay.format with
  | int w =>
    obtain ⟨t, ht⟩ := hw w hfm
    simp only [ht]
    cases x with
    | int t' x =>
      by_cases htt : t = t'
      · subst htt
        show Fetched d lay _ (.ok (Except.map _ (takeInt t (.tup [.struct "int" [("0", .int t x.toNat)], .bool b]))))
        cases b with
        | true => simp only [ht, takeInt, if_true]; exact .broken
        | false =>
          have e : (Data.int t x).read d lay false =
              if lay.deny && !known d x.toNat then .refused true else .set fun u => x.toNat.testBit (d u) := by
            unfold Data.read; rw [hc]; simp [hfm, ht]
          simp only [takeInt, if_true, Bool.false_eq_true, if_false, Except.map, BitVec.ofNat_toNat, BitVec.setWidth_eq]
          rw [ht, if_pos rfl, ← e]
          refine .data _ ?_ ?_ <;> rw [e] <;> split <;> nofun
      · simp only [ht]
        rw [if_neg (by simpa using htt)]
        show Fetched d lay _ (.ok (Except.map _ (takeInt t (.tup [.struct "int" [("0", .int t' x.toNat)], .bool b]))))
        have : takeInt t (.tup [.struct "int" [("0", .int t' x.toNat)], .bool b] : Val (Fin n)) = .error invalidType := by
          simp only [takeInt]; rw [if_neg (Ne.symm htt)]
        rw [this]; exact .wrong
    | seq vs => exact .wrong
    | map es => exact .wrong
    | words ws => exact .wrong
  | list =>
    show Fetched d lay _ (readAll (takeItem "seq" readVariant) fuel (x.value b) >>= fun r => .ok (r.map .seq))
    cases x with
    | seq vs =>
      rw [show (Data.seq vs).value b = rest "seq" (vs.map variant) b from rfl, readAll_items readVariant_eq vs b hf]
      cases b with
      | true => exact .broken
      | false =>
        have e : (Data.seq vs).read d lay false = .set fun u => decide (u ∈ vs) := by
          unfold Data.read; rw [hc]; simp [hfm]
        show Fetched d lay (.set _) (.ok (.ok (.seq vs)))
        rw [← e]; exact .data _ (by rw [e]; nofun) (by rw [e]; nofun)
    | int t x => rw [show (Data.int t x).value b = .tup [.struct "int" [("0", .int t x.toNat)], .bool b] from rfl, readAll_error (takeItem_int _ (by nofun) "int" b) h0]; exact .wrong
    | map es => rw [show (Data.map es).value b = rest "map" (es.map entryVal) b from rfl, readAll_error (takeItem_wrong (tag' := "map") (by decide) _ b) h0]; exact .wrong
    | words ws => rw [show (Data.words ws).value b = rest "words" (ws.map fun w => .int .u64 w.toNat) b from rfl, readAll_error (takeItem_wrong (tag' := "words") (by decide) _ b) h0]; exact .wrong
  | map =>
    show Fetched d lay _ (readAll (takeItem "map" readEntry) fuel (x.value b) >>= fun r => .ok (r.map .map))
    cases x with
    | map es =>
      rw [show (Data.map es).value b = rest "map" (es.map entryVal) b from rfl, readAll_items readEntry_eq es b hf]
      cases b with
      | true => exact .broken
      | false =>
        have e : (Data.map es).read d lay false = .set fun u => decide ((u, true) ∈ es) := by
          unfold Data.read; rw [hc]; simp [hfm]
        show Fetched d lay (.set _) (.ok (.ok (.map es)))
        rw [← e]; exact .data _ (by rw [e]; nofun) (by rw [e]; nofun)
    | int t x => rw [show (Data.int t x).value b = .tup [.struct "int" [("0", .int t x.toNat)], .bool b] from rfl, readAll_error (takeItem_int _ (by nofun) "int" b) h0]; exact .wrong
    | seq vs => rw [show (Data.seq vs).value b = rest "seq" (vs.map variant) b from rfl, readAll_error (takeItem_wrong (tag' := "seq") (by decide) _ b) h0]; exact .wrong
    | words ws => rw [show (Data.words ws).value b = rest "words" (ws.map fun w => .int .u64 w.toNat) b from rfl, readAll_error (takeItem_wrong (tag' := "words") (by decide) _ b) h0]; exact .wrong
  | array =>
    show Fetched d lay _ (match readUpTo (takeItem "words" readWord) lay.storage.words (x.value b) with
      | .error e => .ok (.error e)
      | .ok (ws, st) => readAll (takeItem "words" readWord) fuel st >>= fun r => .ok (r.map fun _ => .words ws))
    cases x with
    | words ws =>
      rw [show (Data.words ws).value b = rest "words" (ws.map fun w => .int .u64 w.toNat) b from rfl, readUpTo_items readWord_eq]
      have hf' : (ws.drop lay.storage.words).length < fuel := by
        rw [List.length_drop]; exact Nat.lt_of_le_of_lt (Nat.sub_le ..) hf
      cases b with
      | true =>
        by_cases hb : ws.length < lay.storage.words
        · rw [if_pos ⟨rfl, hb⟩]; exact .broken
        · rw [if_neg (fun h => hb h.2)]
          simp only [readAll_items readWord_eq _ _ hf']
          exact .broken
      | false =>
        rw [if_neg (fun h => absurd h.1 (by decide))]
        simp only [readAll_items readWord_eq _ _ hf']
        have e : (Data.words (ws.take lay.storage.words)).read d lay false =
            if known d (ofWords (ws.take lay.storage.words)) then .set fun u => (ofWords (ws.take lay.storage.words)).testBit (d u)
            else .panic invalidVariants := by
          unfold Data.read; rw [hc]; simp only [if_true, hfm, List.take_take, Nat.min_self]; rfl
        show Fetched d lay (if _ then _ else _) (.ok (.ok (.words (ws.take lay.storage.words))))
        rw [← e]
        refine .data _ ?_ ?_ <;> rw [e] <;> split <;> nofun
    | int t x => rw [show (Data.int t x).value b = .tup [.struct "int" [("0", .int t x.toNat)], .bool b] from rfl, readUpTo_error (takeItem_int _ (by nofun) "int" b) hp]; exact .wrong
    | seq vs => rw [show (Data.seq vs).value b = rest "seq" (vs.map variant) b from rfl, readUpTo_error (takeItem_wrong (tag' := "seq") (by decide) _ b) hp]; exact .wrong
    | map es => rw [show (Data.map es).value b = rest "map" (es.map entryVal) b from rfl, readUpTo_error (takeItem_wrong (tag' := "map") (by decide) _ b) hp]; exact .wrong
end
end Enumset.Hist
