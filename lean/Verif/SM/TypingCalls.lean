import Verif.SM.TypingCombs

/-! Soundness of the types: amplitudes and their calls. -/

set_option linter.unusedSectionVars false

namespace Spinas.SM
open XR Ops Spec Prog Props

variable [FPEnv]

theorem ampTy_sound {Γ : Frames} {X : TCtx} {S S' : Sem XR XC Unit} (W : Two Γ X S S') : ∀ (s : Stmt) (E : TEnv) (v : VTy) (Φ Φ' : Vals),
    s.tyAmp X E = some v → EnvDen Γ X E Φ Φ' → FlowOk Γ X (s.exec S) (s.exec S') E Φ Φ' (.ret .c v) := by
  have single : ∀ (s : Stmt) (E : TEnv) (v : VTy) (Φ Φ' : Vals), (match s.ty X E with | some (.ret .c v) => some v | _ => none) = some v → EnvDen Γ X E Φ Φ' →
      FlowOk Γ X (s.exec S) (s.exec S') E Φ Φ' (.ret .c v) := by
    intro s E v Φ Φ' h hE
    split at h
    · rename_i h1; cases h; exact stmtTy_sound W s E _ Φ Φ' h1 hE
    · cases h
  intro s
  induction s with
  | seq a b iha ihb =>
    intro E v Φ Φ' h hE
    unfold Stmt.tyAmp at h
    split at h
    · rename_i n lo incl hi step ds n' body rest heq
      cases heq
      split_ifs at h with hc
      obtain ⟨rfl, rfl, rfl, rfl⟩ := hc
      split at h
      · rename_i E' hE'
        obtain ⟨Φ1, Φ1', hE1, k, k'⟩ := combs_sound W hE' hE
        exact seq_ok k k' (ihb E' v Φ1 Φ1' h hE1) (exec_seq S _ _) (exec_seq S' _ _)
      · cases h
    · rename_i heq
      cases heq
      split at h
      · rename_i E' hE'
        obtain ⟨Φ1, Φ1', hE1, k, k'⟩ := stmtTy_sound W a _ _ Φ Φ' hE' hE
        exact seq_ok k k' (ihb E' v Φ1 Φ1' h hE1) (exec_seq S _ _) (exec_seq S' _ _)
      · rename_i hr
        cases h
        obtain ⟨D, D', hD, k, k'⟩ := stmtTy_sound W a _ _ Φ Φ' hr hE
        refine ⟨D, D', hD, fun l ρ A hl => ?_, fun l ρ A hl => ?_⟩
        · rw [Stmt.exec, bind_ok (k _ _ _ hl)]; rfl
        · rw [Stmt.exec, bind_ok (k' _ _ _ hl)]; rfl
      · cases h
    · rename_i hne; exact (hne a b rfl).elim
  | _ => intro E v Φ Φ' h hE; exact single _ E v Φ Φ' h hE

/-- The products in the two frames agree with their types, in any setting. -/
def VTwo (Γ : Frames) (sp : Nat → Option SPDef) (massive : Nat → Bool) (V V' : Nat → List Int → XC) : Prop :=
  ∀ X : TCtx, X.sp = sp → X.massive = massive → ∀ a d xs T, sp a = some d → vtype X d xs = some T →
    Den Γ X .c (.lin T) (fun ρ => V a (xs.map (·.eval ρ))) (fun ρ => V' a (xs.map (·.eval ρ)))

theorem nrm_nil (ρ : Asg) : nrm [] ρ = 1 := by simp [nrm, zeros]

theorem Via.nil {α : Type} {D D' : Asg → α} (h : Via [] D D') (ns : List Nat) : Via ns D D' := by
  obtain ⟨f, f', h1, h2⟩ := h
  exact ⟨fun _ => f 1, fun _ => f' 1, fun ρ => by rw [h1, nrm_nil], fun ρ => by rw [h2, nrm_nil]⟩

theorem asAmp_sound {Γ : Frames} {X : TCtx} {v w : VTy} (h : v.asAmp X.ns = some w) {D D' : Asg → XC} (hD : Den Γ X .c v D D') (Y : TCtx) : Den Γ Y .c w D D' := by
  unfold VTy.asAmp at h
  split at h
  · split_ifs at h with hn
    cases h
    obtain ⟨h1, h2⟩ := hD
    rw [hn] at h1
    exact ⟨h1.nil _, h2⟩
  · split_ifs at h with hn
    cases h
    obtain ⟨h1, h2⟩ := hD
    rw [hn] at h1
    refine ⟨h1.nil _, fun ρ0 h0 => ?_⟩
    obtain ⟨c, hc⟩ := h2 ρ0 h0
    refine ⟨c, fun ρ => ?_⟩
    simpa using hc ρ
  · rename_i T
    split_ifs at h with hd
    cases h
    intro ρ0 h0
    obtain ⟨G, G', hc, hk⟩ := hD ρ0 h0
    refine ⟨G, G', hc, fun ρ => ?_⟩
    have := hk ρ
    rw [hd, pow_zero, one_mul, one_mul] at this
    exact this
  · cases h
    exact hD
  · cases h

theorem getD_some {α β : Type} (f : α → β) (l : List α) (n : Nat) (x : α) (d : β) (h : (l.map some).getD n none = some x) : (l.map f).getD n d = f x := by
  by_cases hn : n < l.length
  · simp [List.getD, hn] at h ⊢
    rw [h]
  · simp [List.getD, show l.length ≤ n by omega] at h

theorem call_sound {Γ : Frames} {sp : Nat → Option SPDef} {massive : Nat → Bool} {V V' : Nat → List Int → XC} (hV : VTwo Γ sp massive V V')
    (mr : Nat → XR) (mc : Nat → XC) (f f' : Nat → List Int → Prog Unit XC) (junk junk' : Loc XR XC) {m : Method} {args : List IExp} {v : VTy}
    (h : m.tyCall sp massive args = some v) : ∃ D D' : Asg → XC, (∀ Y, Den Γ Y .c v D D') ∧
      ∀ ρ : Asg, m.run ⟨mr, mc, pureV V, f⟩ junk .c (args.map (·.eval ρ)) () = (.ok (D ρ), ()) ∧
        m.run ⟨mr, mc, pureV V', f'⟩ junk' .c (args.map (·.eval ρ)) () = (.ok (D' ρ), ()) := by
  unfold Method.tyCall at h
  dsimp only at h
  split_ifs at h with ha
  split at h
  · rename_i w hw
    generalize hX : (TCtx.mk sp massive (List.filterMap (fun n => match args.getD n (.lit 0) with | .var k => some k | _ => none) m.body.firstSpins) [] [] fun _ _ => none) = X at hw
    have W : Two Γ X ⟨mr, mc, pureV V, f⟩ ⟨mr, mc, pureV V', f'⟩ := by
      refine ⟨rfl, rfl, fun a d xs T hd hT => ⟨_, _, hV X (by rw [← hX]) (by rw [← hX]) a d xs T (by rw [← hd, ← hX]) hT, fun ρ => ⟨rfl, rfl⟩⟩, ?_⟩
      intro k xs v hv
      rw [← hX] at hv
      cases hv
    have hE : EnvDen Γ X ⟨args.map some, [], []⟩ (fun | .r => fun _ _ => fin 0 | .c => fun _ _ => ofC 0) (fun | .r => fun _ _ => fin 0 | .c => fun _ _ => ofC 0) := by
      intro t n b v hv
      cases t <;> simp [TEnv.g] at hv
    obtain ⟨D, D', hD, k, k'⟩ := ampTy_sound W _ _ _ _ _ hw hE
    have hh : ∀ (junk : Loc XR XC) (ρ : Asg), Holds ⟨args.map some, [], []⟩ (fun | .r => fun _ _ => fin 0 | .c => fun _ _ => ofC 0)
        (fun | .r => fin 0 | .c => ofC 0) (enter junk (args.map (·.eval ρ))) ρ := by
      intro junk ρ
      refine ⟨fun n x hx => ?_, fun t n b v hv => ?_⟩
      · exact getD_some (·.eval ρ) args n x _ hx
      · cases t <;> simp [TEnv.g] at hv
    refine ⟨D, D', fun Y => asAmp_sound (X := X) (by rw [← hX]; exact h) hD Y, fun ρ => ⟨?_, ?_⟩⟩
    · rw [Method.run, if_pos (by rw [List.length_map]; exact ha.1), bind_ok (k _ _ _ (hh junk ρ))]; rfl
    · rw [Method.run, if_pos (by rw [List.length_map]; exact ha.1), bind_ok (k' _ _ _ (hh junk' ρ))]; rfl
  · cases h

theorem calls_sound {Γ : Frames} {sp : Nat → Option SPDef} {massive : Nat → Bool} {V V' : Nat → List Int → XC} (hV : VTwo Γ sp massive V V')
    (mr : Nat → XR) (mc : Nat → XC) (junk junk' : Loc XR XC) : ∀ (ms : List Method) (k : Nat) (args : List IExp) (v : VTy), tyCalls sp massive ms k args = some v →
      ∃ D D' : Asg → XC, (∀ Y, Den Γ Y .c v D D') ∧ ∀ ρ : Asg, callable mr mc (pureV V) junk ms k (args.map (·.eval ρ)) () = (.ok (D ρ), ()) ∧
        callable mr mc (pureV V') junk' ms k (args.map (·.eval ρ)) () = (.ok (D' ρ), ())
  | [], k, args, v, h => by cases h
  | m :: ms, k, args, v, h => by
    unfold tyCalls at h
    unfold callable
    split_ifs at h ⊢ with hk
    · exact call_sound hV mr mc _ _ junk junk' h
    · exact calls_sound hV mr mc junk junk' ms k args v h

theorem two_of {Γ : Frames} {sp : Nat → Option SPDef} {massive : Nat → Bool} {V V' : Nat → List Int → XC} (hV : VTwo Γ sp massive V V')
    (mr : Nat → XR) (mc : Nat → XC) (junk junk' : Loc XR XC) (ms : List Method) (ferm vec : List Nat) :
    Two Γ ⟨sp, massive, [], ferm, vec, tyCalls sp massive ms⟩ ⟨mr, mc, pureV V, callable mr mc (pureV V) junk ms⟩ ⟨mr, mc, pureV V', callable mr mc (pureV V') junk' ms⟩ := by
  refine ⟨rfl, rfl, fun a d xs T hd hT => ⟨_, _, hV _ rfl rfl a d xs T hd hT, fun ρ => ⟨rfl, rfl⟩⟩, fun k xs v hv => ?_⟩
  obtain ⟨D, D', hD, h⟩ := calls_sound hV mr mc junk junk' ms k xs v hv
  exact ⟨D, D', hD _, h⟩

end Spinas.SM
