import Verif.Props.SrcSerde
/-!
# C74: the visitors of the generated `deserialize`
-/
set_option autoImplicit false
set_option linter.unusedSimpArgs false
set_option linter.unusedSectionVars false
set_option maxRecDepth 10000

namespace Enumset.Src

/-- One round of `while let`, `rec` being the rounds after it. -/
def unrollLet {H : Type} (p : Pat) (e body rec : Env H → Res (Out H)) (env : Env H) : Res (Out H) :=
  e env >>= fun
    | .val v env => matches? p v >>= fun
      | true => Out.restore env.length (bindPat p v env >>= body) >>= fun
        | .val _ env => rec env
        | .brk env => .ok (.val .unit env)
        | .ret v env => .ok (.ret v env)
      | false => .ok (.val .unit env)
    | .ret v env => .ok (.ret v env)
    | .brk _ => .ub

theorem whileLet_sim {H σ β γ : Type} (enc : σ → Env H) {p : Pat} {e body : Env H → Res (Out H)}
    {K : Val H → Env H → Res (Out H)} {fin : Out H → Res γ} {loop : Nat → σ → Res β} {R : β → Res γ}
    (h0 : ∀ s, loop 0 s = .diverge)
    (h : ∀ n s (rec : Env H → Res (Out H)),
      (∀ s, Out.andThen (rec (enc s)) K >>= fin = loop n s >>= R) →
      Out.andThen (unrollLet p e body rec (enc s)) K >>= fin = loop (n + 1) s >>= R)
    (n : Nat) (s : σ) {env : Env H} (he : env = enc s) :
    Out.andThen (whileLet p e body n env) K >>= fin = loop n s >>= R := by
  subst he
  induction n generalizing s with
  | zero => rw [h0]; rfl
  | succ n ih => exact h n s (whileLet p e body n) ih

/-- The same with what comes after the loop as `R'`. -/
theorem whileLet_sim' {H σ β γ : Type} (enc : σ → Env H) {p : Pat} {e body : Env H → Res (Out H)}
    {K : Val H → Env H → Res (Out H)} {fin : Out H → Res γ} {loop : Nat → σ → Res β} {R : β → Res γ} (R' : σ → Res γ)
    (h0 : ∀ s, loop 0 s = .diverge) (hK : ∀ s, K .unit (enc s) >>= fin = R' s)
    (h : (∀ s, K .unit (enc s) >>= fin = R' s) → ∀ n s (rec : Env H → Res (Out H)),
      (∀ s, Out.andThen (rec (enc s)) K >>= fin = loop n s >>= R) →
      Out.andThen (unrollLet p e body rec (enc s)) K >>= fin = loop (n + 1) s >>= R)
    (n : Nat) (s : σ) {env : Env H} (he : env = enc s) :
    Out.andThen (whileLet p e body n env) K >>= fin = loop n s >>= R :=
  whileLet_sim enc h0 (h hK) n s he

section
variable [Platform] {T : EnumSetType} {G : Gen T.n} {enc : T.Repr → Val T.Val}
  {encI : EnumSetTypeRepr.Iter T.Repr → Val T.Val} {okI : EnumSetTypeRepr.Iter T.Repr → Prop} {k : Nat}
  (S : Storage (G.toProg (k + 10)) T.Repr enc encI okI) (I : EnumItems (G.toProg (k + 10)) T enc id)
  (hn : NoSerde G.items)

include S I in
theorem assign_set (s : String) (a : EnumSet T) (v : T.Val) :
    assignVal (G.ctx s ((G.toProg (k + 10)).link (k + 10))) .bor (setOf enc a) (.host "T" v) =
      a.bitor_assign (.val v) >>= fun r => .ok (setOf enc r) := by
  show ((G.toProg (k + 10)).call (k + 10) "EnumSet" "bitor_assign" [] [] [setOf enc a, .host "T" v] >>= fun r =>
    need (r.2.lookup 0)) = _
  rw [show (Val.host "T" v : Val T.Val) = operandOf enc id (.val v) from rfl, C68_bitor_assign_operand S I k]
  rw [bind_assoc]; rfl

include S I hn in
theorem gen_visit_list (hl : (itemFns G.items).lookup ("Visitor", "visit_seq") = some listVisit)
    (j : Nat) (caller : Env T.Val) (st : Val T.Val) :
    (G.toProg (k + 11)).call j "Visitor" "visit_seq" caller [] [.struct "Visitor" [], .struct "SeqAccess" [("0", st)]] =
      Serde.visitList (T := T) G.lib.nextVariant G.fuel st >>= fun r => .ok (deVal G.lib enc r.1, []) := by
  rw [gen_call (k + 10) j caller [] _ rfl rfl rfl hl (G.toProg (k + 10)).params rfl]
  srun S [listVisit, visitDecl, C68_new S (k + 5), Serde.visitList]
  refine whileLet_sim (σ := EnumSet T × Val T.Val) (loop := fun n p => Serde.listLoopFrom G.lib.nextVariant n p.1 p.2)
    (fun p => ("accum", setOf enc p.1) :: ("self", .struct "Visitor" []) ::
    ("seq", .struct "SeqAccess" [("0", p.2)]) :: (G.toProg (k + 10)).params) (fun _ => rfl) ?_ G.fuel (EnumSet.new, st) rfl
  rintro n ⟨a, st⟩ rec ih
  srun S [unrollLet, lib_next_variant hn, Serde.listLoopFrom]
  rcases hx : G.lib.nextVariant st with ⟨r, st1⟩
  rcases r with e | _ | v
  · srun S [accessStep, deVal]
  · srun S [accessStep, deVal]
  · srun S [accessStep, assign_set S I]
    exact bind_congr fun a => ih (a, st1)

include S I hn in
theorem gen_visit_map (hl : (itemFns G.items).lookup ("Visitor", "visit_map") = some mapVisit)
    (j : Nat) (caller : Env T.Val) (st : Val T.Val) :
    (G.toProg (k + 11)).call j "Visitor" "visit_map" caller [] [.struct "Visitor" [], .struct "MapAccess" [("0", st)]] =
      Serde.visitMap (T := T) G.lib.nextEntry G.fuel st >>= fun r => .ok (deVal G.lib enc r.1, []) := by
  rw [gen_call (k + 10) j caller [] _ rfl rfl rfl hl [] rfl]
  srun S [mapVisit, visitDecl, C68_new S (k + 5), Serde.visitMap]
  refine whileLet_sim (σ := EnumSet T × Val T.Val) (loop := fun n p => Serde.mapLoopFrom G.lib.nextEntry n p.1 p.2)
    (fun p => [("accum", setOf enc p.1), ("self", .struct "Visitor" []), ("map", .struct "MapAccess" [("0", p.2)])])
    (fun _ => rfl) ?_ G.fuel (EnumSet.new, st) rfl
  rintro n ⟨a, st⟩ rec ih
  srun S [unrollLet, lib_next_entry hn, Serde.mapLoopFrom]
  rcases hx : G.lib.nextEntry st with ⟨r, st1⟩
  rcases r with e | _ | ⟨v, b⟩
  · srun S [accessStep, deVal]
  · srun S [accessStep, deVal]
  · cases b
    · srun S [accessStep, assign_set S I]
      exact ih (a, st1)
    · srun S [accessStep, assign_set S I]
      exact bind_congr fun a => ih (a, st1)

/-- `visit_seq` for arrays after the first loop: lib.rs:633-637 -/
def drainRest (next : Access (Val T.Val) U64 (Val T.Val)) (fuel : Nat)
    (accum : Vector U64 (EnumSetTypeRepr.PREFERRED_ARRAY_LEN T.Repr)) (st : Val T.Val) :
    Res (Except (DeError (Val T.Val)) (EnumSet T)) :=
  Serde.drainLoopFrom next fuel st >>= fun
    | (.error e, _) => .ok (.error e)
    | (.ok (), _) => EnumSet.from_array _ accum >>= fun s => .ok (.ok s)
/-- The same, from the result of the first loop. -/
def fillRest (next : Access (Val T.Val) U64 (Val T.Val)) (fuel : Nat) :
    Except (DeError (Val T.Val)) (Vector U64 (EnumSetTypeRepr.PREFERRED_ARRAY_LEN T.Repr) × Nat) × Val T.Val →
    Res (Except (DeError (Val T.Val)) (EnumSet T))
  | (.error e, _) => .ok (.error e)
  | (.ok (accum, _), st) => drainRest next fuel accum st
/-- lib.rs:617-638, each of the two loops with `fuel` -/
def visitArrayAt (next : Access (Val T.Val) U64 (Val T.Val)) (fuel : Nat) (st : Val T.Val) :
    Res (Except (DeError (Val T.Val)) (EnumSet T)) :=
  Serde.fillLoopFrom next fuel (Vector.replicate (EnumSetTypeRepr.PREFERRED_ARRAY_LEN T.Repr) 0) 0 st >>=
    fillRest next fuel

include S I hn in
theorem gen_visit_array (hst : NoStructs G.items)
    (hl : (itemFns G.items).lookup ("Visitor", "visit_seq") = some arrVisit)
    (j : Nat) (caller : Env T.Val) (st : Val T.Val) :
    (G.toProg (k + 11)).call j "Visitor" "visit_seq" caller [] [.struct "Visitor" [], .struct "SeqAccess" [("0", st)]] =
      visitArrayAt (T := T) G.lib.nextWord G.fuel st >>= fun r => .ok (deVal G.lib enc r, []) := by
  rw [gen_call (k + 10) j caller [] _ rfl rfl rfl hl (G.toProg (k + 10)).params rfl]
  have hp := S.PREFERRED_ARRAY_LEN (k + 7)
  have ha : (G.toProg (k + 10)).alias "T::Repr" = G.repr.head := rfl
  rw [ha] at hp
  generalize hD : drainWhile = D
  srun S [arrVisit, visitDecl, prefLen, hp, sd_not_Repr, hD, hst "T::Repr" (by decide) (by decide), fillWhile, visitArrayAt]
  refine whileLet_sim' (σ := Vector U64 (EnumSetTypeRepr.PREFERRED_ARRAY_LEN T.Repr) × Nat × Val T.Val)
    (loop := fun n p => Serde.fillLoopFrom G.lib.nextWord n p.1 p.2.1 p.2.2)
    (fun p => ("i", .int .usize p.2.1) :: ("accum", vec p.1) :: ("self", .struct "Visitor" []) ::
      ("seq", .struct "SeqAccess" [("0", p.2.2)]) :: (G.toProg (k + 10)).params)
    (fun p => drainRest G.lib.nextWord G.fuel p.1 p.2.2 >>= fun r => .ok (deVal (T := T) G.lib enc r, []))
    (fun _ => rfl) ?_ ?_ G.fuel (Vector.replicate _ 0, 0, st) rfl
  · rintro ⟨a, i, st⟩
    rw [drainRest, ← hD]
    srun S [drainWhile]
    refine whileLet_sim (σ := Val T.Val) (loop := fun n st => Serde.drainLoopFrom G.lib.nextWord n st)
      (fun st => ("i", .int .usize i) :: ("accum", vec a) :: ("self", .struct "Visitor" []) ::
      ("seq", .struct "SeqAccess" [("0", st)]) :: (G.toProg (k + 10)).params) (fun _ => rfl) ?_ G.fuel st rfl
    intro n st rec ih
    srun S [unrollLet, lib_next_word hn, Serde.drainLoopFrom]
    rcases hx : G.lib.nextWord st with ⟨r, st1⟩
    rcases r with e | _ | v
    · srun S [accessStep, deVal]
    · srun S [accessStep, deVal, C68_from_array S I (k + 5)]
    · srun S [accessStep]
      exact ih st1
  · rintro hK n ⟨a, i, st⟩ rec ih
    srun S [unrollLet, lib_next_word hn, Serde.fillLoopFrom]
    rcases hx : G.lib.nextWord st with ⟨r, st1⟩
    rcases r with e | _ | v
    · srun S [accessStep, deVal, fillRest]
    · srun S [accessStep, fillRest]
      exact hK (a, i, st1)
    · srun S [accessStep, method_len_vec]
      refine bind_congr fun b => bind_congr fun i' => ?_
      by_cases hi : i' = EnumSetTypeRepr.PREFERRED_ARRAY_LEN T.Repr
      · srun S [hi, fillRest]
        exact hK (b, _, st1)
      · srun S [hi]
        exact ih (b, i', st1)

theorem gen_expecting (S : Storage (G.toProg (k + 10)) T.Repr enc encI okI) (hn : NoSerde G.items) {s : String}
    (hl : (itemFns G.items).lookup ("Visitor", "expecting") = some (expectDecl s))
    (j : Nat) (caller : Env T.Val) :
    (G.toProg (k + 11)).call j "Visitor" "expecting" caller [] [.struct "Visitor" [], message ""] =
      .ok (.ok .unit, [(1, message s)]) := by
  rw [gen_call (k + 10) j caller [] _ rfl rfl rfl hl]
  have h := fun env => lib_message hn (k + 9) (k + 10) env "" s
  simp only [message] at h ⊢
  srun S [expectDecl, h, String.empty_append]

theorem gen_de_seq (S : Storage (G.toProg (k + 12)) T.Repr enc encI okI) (hn : NoSerde G.items)
    (hv : "Visitor" ∈ itemStructs G.items)
    (hl : (itemFns G.items).lookup ("T", "deserialize") = some (visitorDe "deserialize_seq"))
    {s : String} (hx : ∀ caller, (G.toProg (k + 11)).call (k + 11) "Visitor" "expecting" caller []
      [.struct "Visitor" [], message ""] = .ok (.ok .unit, [(1, message s)]))
    {f : Val T.Val → Res (Val T.Val)}
    (hf : ∀ caller st, (G.toProg (k + 11)).call (k + 11) "Visitor" "visit_seq" caller []
      [.struct "Visitor" [], .struct "SeqAccess" [("0", st)]] = f st >>= fun r => .ok (r, []))
    (j : Nat) (caller : Env T.Val) (st : Val T.Val) :
    (G.toProg (k + 13)).call j "T" "deserialize" caller [] [.struct "Deserializer" [("0", st)]] =
      (match G.lib.deSeq st with
      | .error e => .ok (.err (G.lib.expected e s))
      | .ok st => f st) >>= fun r => .ok (G.lib.after st r, []) := by
  rw [gen_call (k + 12) j caller [] _ rfl rfl rfl hl (G.toProg (k + 12)).params rfl]
  have hd := lib_deSeq hn (k + 11) (k + 12)
  srun S [visitorDe, deDecl, hv]
  rw [hd]
  cases G.lib.deSeq st with
  | error e =>
    simp only [message] at hx ⊢
    srun S [hx, SerdeLib.fails, SerdeLib.after]
  | ok st1 =>
    srun S [hf]

theorem gen_de_map (S : Storage (G.toProg (k + 12)) T.Repr enc encI okI) (hn : NoSerde G.items)
    (hv : "Visitor" ∈ itemStructs G.items)
    (hl : (itemFns G.items).lookup ("T", "deserialize") = some (visitorDe "deserialize_map"))
    {s : String} (hx : ∀ caller, (G.toProg (k + 11)).call (k + 11) "Visitor" "expecting" caller []
      [.struct "Visitor" [], message ""] = .ok (.ok .unit, [(1, message s)]))
    {f : Val T.Val → Res (Val T.Val)}
    (hf : ∀ caller st, (G.toProg (k + 11)).call (k + 11) "Visitor" "visit_map" caller []
      [.struct "Visitor" [], .struct "MapAccess" [("0", st)]] = f st >>= fun r => .ok (r, []))
    (j : Nat) (caller : Env T.Val) (st : Val T.Val) :
    (G.toProg (k + 13)).call j "T" "deserialize" caller [] [.struct "Deserializer" [("0", st)]] =
      (match G.lib.deMap st with
      | .error e => .ok (.err (G.lib.expected e s))
      | .ok st => f st) >>= fun r => .ok (G.lib.after st r, []) := by
  rw [gen_call (k + 12) j caller [] _ rfl rfl rfl hl (G.toProg (k + 12)).params rfl]
  have hd := lib_deMap hn (k + 11) (k + 12)
  srun S [visitorDe, deDecl, hv]
  rw [hd]
  cases G.lib.deMap st with
  | error e =>
    simp only [message] at hx ⊢
    srun S [hx, SerdeLib.fails, SerdeLib.after]
  | ok st1 =>
    srun S [hf]
end
end Enumset.Src
