import Verif.SM.TypingSound

/-! Soundness of the types: the loop over the spinor spins of vector particles. -/

set_option linter.unusedSectionVars false

namespace Spinas.SM
open XR Ops Spec Prog Props

variable [FPEnv]

/-! ### sums over spinor spins -/

/-- give the spinor spins of the vector particles values -/
def putSpins (ρ : Asg) : List (Nat × Nat × Nat) → List (Int × Int) → Asg
  | (_, a, b) :: vs, (x, y) :: xs => putSpins (put (put ρ a x) b y) vs xs
  | _, _ => ρ

/-- the spinor spin variables -/
def spinVars (vs : List (Nat × Nat × Nat)) : List Nat := vs.flatMap fun d => [d.2.1, d.2.2]

theorem putSpins_other (ρ : Asg) : ∀ (vs : List (Nat × Nat × Nat)) (xs : List (Int × Int)) (n : Nat), n ∉ spinVars vs → putSpins ρ vs xs n = ρ n
  | [], xs, n, h => by cases xs <;> rfl
  | (_, a, b) :: vs, [], n, h => rfl
  | (_, a, b) :: vs, (x, y) :: xs, n, h => by
    simp only [spinVars, List.flatMap_cons, List.cons_append, List.nil_append, List.mem_cons, not_or] at h
    rw [putSpins, putSpins_other _ vs xs n h.2.2, put_ne _ _ h.2.1, put_ne _ _ h.1]

theorem spinsRec_length (ds : List Int) (i : Int) : (spinsRec ds i).length = ds.length := by
  induction ds generalizing i with
  | nil => rfl
  | cons d ds ih => unfold spinsRec; split_ifs <;> simp [ih]

theorem amp'_add (f g : List (Int × Int) → ℂ) (ds : List Int) : amp' (fun l => f l + g l) ds = amp' f ds + amp' g ds := by
  unfold amp'; rw [Finset.sum_add_distrib]; ring
theorem amp'_smul (c : ℂ) (f : List (Int × Int) → ℂ) (ds : List Int) : amp' (fun l => c * f l) ds = c * amp' f ds := by
  unfold amp'; rw [← Finset.mul_sum]; ring
theorem amp'_pos (f : List (Int × Int) → ℂ) (ds : List Int) {d : Int} (h : 0 < d) : amp' f (d :: ds) = amp' (fun l => f ((1, 1) :: l)) ds := by
  have h1 : zeros (d :: ds) = zeros ds := by simp [zeros, show d ≠ 0 by omega]
  unfold amp'
  rw [h1]
  simp only [spinsRec, if_neg (show d ≠ 0 by omega), if_neg (show ¬d < 0 by omega)]
theorem amp'_neg (f : List (Int × Int) → ℂ) (ds : List Int) {d : Int} (h : d < 0) : amp' f (d :: ds) = amp' (fun l => f ((-1, -1) :: l)) ds := by
  have h1 : zeros (d :: ds) = zeros ds := by simp [zeros, show d ≠ 0 by omega]
  unfold amp'
  rw [h1]
  simp only [spinsRec, if_neg (show d ≠ 0 by omega), if_pos h]

/-- The normalised sum over the spinor spins. -/
theorem amp'_mix (G : Asg → ℂ) : ∀ (vs : List (Nat × Nat × Nat)) (ρ : Asg), (∀ d ∈ vs, d.1 ∉ spinVars vs) →
    amp' (fun l => G (putSpins ρ vs l)) (vs.map fun d => ρ d.1) = appAll (mixAll vs) G ρ
  | [], ρ, _ => by simp [amp', zeros, mixAll, appAll, putSpins]
  | (n, a, b) :: vs, ρ, h => by
    have h2 : ∀ d ∈ vs, d.1 ∉ spinVars vs := fun d hd hm => h d (List.mem_cons_of_mem _ hd) (List.mem_append_right _ hm)
    have fst : ∀ x y : Int, (vs.map fun d => put (put ρ a x) b y d.1) = vs.map fun d => ρ d.1 := by
      intro x y
      refine List.map_congr_left fun d hd => ?_
      have := h d (List.mem_cons_of_mem _ hd)
      simp only [spinVars, List.flatMap_cons, List.cons_append, List.nil_append, List.mem_cons, not_or] at this
      rw [put_ne _ _ this.2.1, put_ne _ _ this.1]
    have ih : ∀ x y : Int, amp' (fun l => G (putSpins (put (put ρ a x) b y) vs l)) (vs.map fun d => ρ d.1) = appAll (mixAll vs) G (put (put ρ a x) b y) := by
      intro x y
      rw [← amp'_mix G vs _ h2, fst]
    show _ = app (Ext.vec n a b 0).mix (appAll (mixAll vs) G) ρ
    rw [List.map_cons]
    dsimp only
    rcases lt_trichotomy (ρ n) 0 with hn | hn | hn
    · rw [amp'_neg _ _ hn]
      simp only [putSpins]
      rw [ih]
      simp [app, Ext.mix, hn, show ρ n ≠ 0 by omega, show ¬ 0 < ρ n by omega]
    · rw [hn, amp'_zero, amp'_smul, amp'_add]
      simp only [putSpins]
      rw [ih, ih]
      simp only [app, Ext.mix, hn, List.map_cons, List.map_nil, List.sum_cons, List.sum_nil, if_true, lt_irrefl, if_false]
      unfold isq
      ring
    · rw [amp'_pos _ _ hn]
      simp only [putSpins]
      rw [ih]
      simp [app, Ext.mix, hn, show ρ n ≠ 0 by omega, show ¬ ρ n < 0 by omega]

/-! ### environments -/

theorem forget_gi {E : TEnv} {s : Stmt} {n : Nat} {x : IExp} (h : (E.forget s).gi n = some x) :
    n ∉ s.assigned ∧ E.gi n = some x ∧ ((∃ i, x = .lit i) ∨ ∃ m, x = .var m) := by
  unfold TEnv.gi TEnv.forget at h
  dsimp only at h
  rw [getD_range_map] at h
  split_ifs at h with h1 h2
  rw [List.contains_iff_mem] at h2
  split at h
  · rename_i i hi; cases h; exact ⟨h2, hi, .inl ⟨_, rfl⟩⟩
  · rename_i i hi; cases h; exact ⟨h2, hi, .inr ⟨_, rfl⟩⟩
  · cases h

theorem forget_g {E : TEnv} {s : Stmt} {t : Ty} {n : Nat} {b : Bool} {v : VTy} (h : (E.forget s).g t n = some (b, v)) :
    n ∉ s.assignedT t ∧ b = false ∧ (∃ d, v = .scal d) ∧ E.g t n = some (b, v) := by
  cases t <;> unfold TEnv.g TEnv.forget at h <;> dsimp only at h <;> rw [getD_range_map] at h <;> split_ifs at h with h1 h2
  all_goals
    rw [List.contains_iff_mem] at h2
    split at h
    · rename_i d hi; cases h; exact ⟨h2, rfl, ⟨_, rfl⟩, hi⟩
    · cases h

theorem mem_getD {α : Type} {l : List (Option α)} {n : Nat} {x : α} (h : l.getD n none = some x) : some x ∈ l := by
  by_cases hn : n < l.length
  · simp [List.getD, hn] at h
    rw [← h]; exact List.getElem_mem hn
  · simp [List.getD, show l.length ≤ n by omega] at h

theorem hideSpins_g (E : TEnv) : ∀ (ds : List (Nat × Nat × Nat)) (t : Ty) (n : Nat), (hideSpins E ds).g t n = E.g t n
  | [], t, n => rfl
  | (_, a, b) :: ds, t, n => by rw [hideSpins, hideSpins_g _ ds t n, TEnv.g_seti, TEnv.g_seti]

theorem spinVars_vecSpins : ∀ (ds : List (Nat × Nat × Nat)) (ns : List Nat), ns.length = ds.length → spinVars (vecSpins ds ns) = ds.flatMap fun d => [newSym d.2.1, newSym d.2.2]
  | [], [], _ => rfl
  | d :: ds, n :: ns, h => by
    have := spinVars_vecSpins ds ns (by simpa using h)
    simp only [vecSpins, spinVars, List.zip_cons_cons, List.map_cons, List.flatMap_cons] at this ⊢
    rw [this]
  | [], _ :: _, h => by simp at h
  | _ :: _, [], h => by simp at h

theorem vecSpins_fst : ∀ (ds : List (Nat × Nat × Nat)) (ns : List Nat), ns.length = ds.length → (vecSpins ds ns).map (·.1) = ns
  | [], [], _ => rfl
  | d :: ds, n :: ns, h => by
    have := vecSpins_fst ds ns (by simpa using h)
    simp only [vecSpins, List.zip_cons_cons, List.map_cons] at this ⊢
    rw [this]
  | [], _ :: _, h => by simp at h
  | _ :: _, [], h => by simp at h

/-- variables in an entry of the environment -/
def symOk (bad : List Nat) : IExp → Prop
  | .lit _ => True
  | .var m => m ∉ bad
  | _ => False

theorem symOk_eval {bad : List Nat} {x : IExp} (h : symOk bad x) {ρ ρ' : Asg} (e : ∀ m, m ∉ bad → ρ' m = ρ m) : x.eval ρ' = x.eval ρ := by
  cases x with
  | lit i => rfl
  | var m => exact e m h
  | mul a b => exact h.elim
  | loops ds => exact h.elim

/-- The variables assigned by `get_spinor_spins` hold the spinor spins. -/
theorem hide_sound : ∀ (ds : List (Nat × Nat × Nat)) (ns : List Nat) (xs : List (Int × Int)), ns.length = ds.length → xs.length = ds.length →
    (spinVars (vecSpins ds ns)).Nodup → ∀ (E : TEnv) (l : Loc XR XC) (ρ : Asg), (∀ m x, E.gi m = some x → symOk (spinVars (vecSpins ds ns)) x ∧ l.i m = x.eval ρ) →
    ∀ m x, (hideSpins E ds).gi m = some x → (setSpins l ds xs).i m = x.eval (putSpins ρ (vecSpins ds ns) xs)
  | [], [], [], _, _, _, E, l, ρ, hE => fun m x h => (hE m x h).2
  | (c, a, b) :: ds, n :: ns, (x, y) :: xs, h1, h2, hn, E, l, ρ, hE => by
    have e : vecSpins ((c, a, b) :: ds) (n :: ns) = (n, newSym a, newSym b) :: vecSpins ds ns := rfl
    rw [e] at hn hE ⊢
    have hn' : newSym a ∉ newSym b :: spinVars (vecSpins ds ns) ∧ newSym b ∉ spinVars (vecSpins ds ns) ∧ (spinVars (vecSpins ds ns)).Nodup := by
      simpa [spinVars, List.nodup_cons] using hn
    obtain ⟨hna, hnb, hn'⟩ := hn'
    rw [hideSpins, setSpins, putSpins]
    refine hide_sound ds ns xs (by simpa using h1) (by simpa using h2) hn' _ _ _ ?_
    intro m z hz
    rw [TEnv.gi_seti, TEnv.gi_seti] at hz
    have hi : ((l.seti a x).seti b y).i m = if m = b then y else if m = a then x else l.i m := rfl
    rw [hi]
    split_ifs at hz ⊢ with hmb hma
    · cases hz
      refine ⟨hnb, ?_⟩
      show y = put _ _ _ _
      rw [put_same]
    · cases hz
      refine ⟨fun hm => hna (List.mem_cons_of_mem _ hm), ?_⟩
      show x = put _ _ _ _
      rw [put_ne _ _ (fun e : newSym a = newSym b => hna (e ▸ List.mem_cons_self)), put_same]
    · obtain ⟨k1, k2⟩ := hE m z hz
      have sub : ∀ k, k ∉ spinVars ((n, newSym a, newSym b) :: vecSpins ds ns) → k ≠ newSym a ∧ k ≠ newSym b ∧ k ∉ spinVars (vecSpins ds ns) := by
        intro k hk
        simpa [spinVars, not_or] using hk
      refine ⟨?_, ?_⟩
      · cases z with
        | lit i => trivial
        | var m => exact (sub m k1).2.2
        | mul a b => exact k1.elim
        | loops ds => exact k1.elim
      · rw [k2]
        refine (symOk_eval k1 fun k hk => ?_).symm
        obtain ⟨s1, s2, -⟩ := sub k hk
        rw [put_ne _ _ s2, put_ne _ _ s1]
  | [], _ :: _, _, h1, _, _, _, _, _, _ => by simp at h1
  | _ :: _, [], _, h1, _, _, _, _, _, _ => by simp at h1
  | _ :: _, _, [], _, h2, _, _, _, _, _ => by simp at h2
  | [], _, _ :: _, _, h2, _, _, _, _, _ => by simp at h2

theorem nrm_congr {ns : List Nat} {ρ ρ' : Asg} (h : ∀ n ∈ ns, ρ' n = ρ n) : nrm ns ρ' = nrm ns ρ := by
  unfold nrm
  rw [List.map_congr_left h]

theorem den_via {Γ : Frames} {X : TCtx} {t : Ty} {d : Nat} {D D' : Asg → t.den XR XC} (h : Den Γ X t (.scal d) D D') : Via X.ns D D' := by
  cases t
  · exact h.1
  · exact h.1

/-! ### the loop -/

/-- Everything but the variables assigned in the loop is as at the beginning. -/
structure CombsPre (Γ : Frames) (X : TCtx) (E : TEnv) (n : Nat) (hi : IExp) (ds : List (Nat × Nat × Nat)) (ns : List Nat) (body : Stmt) (k : Nat) (E2 : TEnv) (T : CType) : Prop where
  syms : optMap E.symbol (ds.map (·.1)) = some ns
  hiSym : hi.sym E = some (.loops ns)
  acc : E.g .c k = some (false, .zero)
  assigned : k ∈ body.assignedT .c
  nsX : ns = X.ns
  nodup : (ns ++ spinVars (vecSpins ds ns)).Nodup
  ok : ∀ m x, (E.forget (.loop n 0 false hi 1 (.seq (.spins ds (.var n)) body))).gi m = some x → symOk (spinVars (vecSpins ds ns)) x
  fst : ∀ d ∈ ds, d.1 ≠ n ∧ d.1 ∉ (Stmt.seq (.spins ds (.var n)) body).assigned
  body : body.ty X ((hideSpins (E.forget (.loop n 0 false hi 1 (.seq (.spins ds (.var n)) body))) ds).set .c k (some (true, .zero))) = some (.next E2)
  res : E2.g .c k = some (true, .lin T)
  deg : T.deg = 1

theorem tyCombs_some {Γ : Frames} {X : TCtx} {n : Nat} {hi : IExp} {ds : List (Nat × Nat × Nat)} {body : Stmt} {E E' : TEnv}
    (h : tyCombs X n hi ds body E = some E') : ∃ ns k E2 T, CombsPre Γ X E n hi ds ns body k E2 T ∧
      E' = (E.forget (.loop n 0 false hi 1 (.seq (.spins ds (.var n)) body))).set .c k (some (false, .amp (vecSpins ds ns) T)) := by
  unfold tyCombs at h
  dsimp only at h
  cases h1 : optMap E.symbol (ds.map (·.1)) with
  | none => rw [h1] at h; cases h
  | some ns =>
  cases h2 : hi.sym E with
  | none => rw [h1, h2] at h; cases h
  | some x =>
  cases x with
  | lit i => rw [h1, h2] at h; cases h
  | var i => rw [h1, h2] at h; cases h
  | mul a b => rw [h1, h2] at h; cases h
  | loops ns' =>
  cases h3 : (body.assignedT .c).head? with
  | none => rw [h1, h2, h3] at h; cases h
  | some k =>
    rw [h1, h2, h3] at h
    dsimp only at h
    split at h
    · rename_i hz
      split_ifs at h with hc
      obtain ⟨c1, c2, c3, c4, c5, c6⟩ := hc
      split at h
      · rename_i E2 hb
        split at h
        · rename_i T hr
          split_ifs at h with hd
          cases h
          refine ⟨ns, k, E2, T, ⟨h1, by rw [h2, c2], hz, List.mem_of_mem_head? h3, c1, c3, ?_, ?_, hb, hr, hd⟩, rfl⟩
          · intro m x hx
            have := List.all_eq_true.mp c4 _ (mem_getD hx)
            cases x with
            | lit i => trivial
            | var m =>
              dsimp only at this
              intro hm
              obtain ⟨d, hd, hm⟩ := List.mem_flatMap.mp hm
              simp only [Bool.not_eq_true', List.any_eq_false, Bool.or_eq_true, beq_iff_eq, not_or] at this
              have := this d hd
              simp only [List.mem_cons, List.not_mem_nil, or_false] at hm
              rcases hm with rfl | rfl
              · exact this.1 rfl
              · exact this.2 rfl
            | mul a b => cases this
            | loops l => cases this
          · intro d hd
            have := List.all_eq_true.mp c5 d hd
            simp only [Bool.and_eq_true, bne_iff_ne, Bool.not_eq_true', List.contains_eq_mem, decide_eq_false_iff_not] at this
            exact this
        · cases h
      · cases h
    · cases h

/-- the terms of the sum -/
noncomputable def combTerm (Gx : Asg → XC) (vs : List (Nat × Nat × Nat)) (ns : List Nat) (ρ : Asg) (j : Int) : XC := Gx (putSpins ρ vs (spinsRec (ns.map ρ) j))

theorem combs_run {Γ : Frames} {X : TCtx} {S : Sem XR XC Unit} {E E2 : TEnv} {n : Nat} {hi : IExp} {ds : List (Nat × Nat × Nat)} {ns : List Nat} {body : Stmt} {k : Nat} {T : CType}
    (H : CombsPre Γ X E n hi ds ns body k E2 T) {Φ Φ2 : Vals} (hvia : ∀ t m d, E.g t m = some (false, .scal d) → ∃ f : ℝ → t.den XR XC, ∀ ρ, Φ t m ρ = f (nrm X.ns ρ))
    (hrun : Runs (body.exec S) ((hideSpins (E.forget (.loop n 0 false hi 1 (.seq (.spins ds (.var n)) body))) ds).set .c k (some (true, .zero)))
      (Φ.put .c k fun _ => ofC 0) E2 Φ2) {l0 : Loc XR XC} {ρ : Asg} {A : Accs} (h0 : Holds E Φ A l0 ρ) :
    ∀ (xs : List Int) (l : Loc XR XC), KeepsT (.loop n 0 false hi 1 (.seq (.spins ds (.var n)) body)) l0 l →
      ∃ l2, loopRun n ((Stmt.seq (.spins ds (.var n)) body).exec S) xs l () = (.ok (.next l2), ()) ∧
        KeepsT (.loop n 0 false hi 1 (.seq (.spins ds (.var n)) body)) l0 l2 ∧
        l2.c k = xs.foldl (fun a j => a + combTerm (Φ2 .c k) (vecSpins ds ns) ns ρ j) (l.c k)
  | [], l, hl => ⟨l, rfl, hl, rfl⟩
  | j :: xs, l, hl => by
    have hlen : ns.length = ds.length := by rw [optMap_length H.syms, List.length_map]
    -- the spins assigned
    have hds : (ds.map fun d => (l.seti n j).i d.1) = ns.map ρ := by
      have e : (ds.map fun d => (l.seti n j).i d.1) = (ds.map (·.1)).map l0.i := by
        rw [List.map_map]
        refine List.map_congr_left fun d hd => ?_
        obtain ⟨f1, f2⟩ := H.fst d hd
        show (if d.1 = n then j else l.i d.1) = l0.i d.1
        rw [if_neg f1]
        refine hl.1 d.1 fun hm => ?_
        rw [Stmt.assigned, List.mem_cons] at hm
        exact hm.elim f1 f2
      rw [e]
      exact optMap_map (fun a b hab => h0.i a _ (symbol_sound hab)) H.syms
    have hn : (l.seti n j).i n = j := if_pos rfl
    generalize hx : spinsRec (ns.map ρ) j = sp
    have hsl : sp.length = ds.length := by rw [← hx, spinsRec_length, List.length_map, hlen]
    generalize hl1 : setSpins (l.seti n j) ds sp = l1
    have e1 : (Stmt.spins ds (.var n)).exec S (l.seti n j) () = (.ok (.next l1), ()) := by
      rw [Stmt.exec, hds, IExp.eval, hn, spinorSpins_eq, hx, hl1]; rfl
    generalize hρ : putSpins ρ (vecSpins ds ns) sp = ρ1
    have hρo : ∀ m, m ∉ spinVars (vecSpins ds ns) → ρ1 m = ρ m := fun m hm => by rw [← hρ]; exact putSpins_other ρ _ _ m hm
    have hnd := List.nodup_append.mp H.nodup
    have hns : nrm X.ns ρ1 = nrm X.ns ρ := nrm_congr fun m hm => hρo m fun hs => hnd.2.2 m (by rw [H.nsX]; exact hm) m hs rfl
    have hk1 : KeepsT (.loop n 0 false hi 1 (.seq (.spins ds (.var n)) body)) l0 (l.seti n j) := by
      refine ⟨fun m hm => ?_, fun t m hm => by rw [loc_seti_get]; exact hl.2 t m hm⟩
      show (if m = n then j else l.i m) = l0.i m
      rw [if_neg (by rintro rfl; exact hm List.mem_cons_self)]
      exact hl.1 m hm
    have hl1get : ∀ t m, l1.get t m = l.get t m := fun t m => by rw [← hl1, setSpins_get, loc_seti_get]
    have hH : Holds ((hideSpins (E.forget (.loop n 0 false hi 1 (.seq (.spins ds (.var n)) body))) ds).set .c k (some (true, .zero)))
        (Φ.put .c k fun _ => ofC 0) (fun | .r => fin 0 | .c => l.c k) l1 ρ1 := by
      refine ⟨fun m x hm => ?_, fun t m b v hm => ?_⟩
      · rw [TEnv.gi_set] at hm
        rw [← hl1, ← hρ]
        refine hide_sound ds ns sp hlen hsl hnd.2.1 _ _ _ (fun m x hmx => ⟨H.ok m x hmx, ?_⟩) m x hm
        obtain ⟨f1, f2, -⟩ := forget_gi hmx
        rw [hk1.1 m f1]; exact h0.i m x f2
      · rw [TEnv.g_set, hideSpins_g] at hm
        rw [hl1get]
        split_ifs at hm with hc
        · obtain ⟨rfl, rfl⟩ := hc
          cases hm
          rw [Vals.put_same]
          exact (xc_add_zero _).symm
        · rw [Vals.put_other _ _ _ _ hc]
          obtain ⟨f1, rfl, ⟨d, rfl⟩, f2⟩ := forget_g hm
          obtain ⟨f, hf⟩ := hvia t m d f2
          have : l.get t m = Φ t m ρ := (hl.2 t m f1).trans (h0.v t m _ _ f2)
          rw [this]
          show Φ t m ρ = Φ t m ρ1
          rw [hf, hf, hns]
    obtain ⟨l2, e2, hl2⟩ := hrun _ _ _ hH
    have e3 : (Stmt.seq (.spins ds (.var n)) body).exec S (l.seti n j) () = (.ok (.next l2), ()) := by
      rw [exec_seq S _ _ _ _ e1]; exact e2
    have hk2 : KeepsT (.loop n 0 false hi 1 (.seq (.spins ds (.var n)) body)) l0 l2 := by
      obtain ⟨g1, g2⟩ := execT_keeps S _ _ _ _ e3
      refine ⟨fun m hm => ?_, fun t m hm => ?_⟩
      · rw [g1 m fun h => hm (List.mem_cons_of_mem _ h)]; exact hk1.1 m hm
      · rw [g2 t m hm]; exact hk1.2 t m hm
    have hacc : l2.c k = l.c k + combTerm (Φ2 .c k) (vecSpins ds ns) ns ρ j := by
      have := hl2.v .c k _ _ H.res
      unfold combTerm
      rw [hx, hρ]; exact this
    obtain ⟨l3, e4, k3, a3⟩ := combs_run H hvia hrun h0 xs l2 hk2
    refine ⟨l3, ?_, k3, ?_⟩
    · rw [loopRun, bind_ok e3]; exact e4
    · rw [a3, hacc]; rfl

/-- the values of the loop counter -/
def counters0 (N : Nat) : List Int := (List.range N).map fun i : Nat => (i : Int)

theorem loopVals_counters (h : Int) : loopVals 0 false h 1 = counters0 h.toNat := by
  unfold loopVals counters0
  simp

theorem foldl_fin_head {f : Int → XC} : ∀ (xs : List Int) (a : XC), (xs.foldl (fun a j => a + f j) a).Fin → a.Fin ∧ ∀ j ∈ xs, (f j).Fin
  | [], a, h => ⟨h, by simp⟩
  | j :: xs, a, h => by
    obtain ⟨h1, h2⟩ := foldl_fin_head xs _ h
    obtain ⟨h3, h4⟩ := c_add_fin h1
    refine ⟨h3, fun i hi => ?_⟩
    rcases List.mem_cons.mp hi with rfl | hi
    · exact h4
    · exact h2 i hi

theorem foldl_ofC {f : Int → XC} {g : Int → ℂ} (h : ∀ j, f j = ofC (g j)) : ∀ (N : Nat) (a : ℂ), (counters0 N).foldl (fun a j => a + f j) (ofC a) = ofC (a + ∑ i ∈ Finset.range N, g i)
  | 0, a => by simp [counters0]
  | N + 1, a => by
    have : counters0 (N + 1) = counters0 N ++ [(N : Int)] := by simp [counters0, List.range_succ]
    rw [this, List.foldl_append, foldl_ofC h N a, Finset.sum_range_succ]
    simp only [List.foldl_cons, List.foldl_nil, h, ofC_add, add_assoc]

theorem combs_sound {Γ : Frames} {X : TCtx} {S S' : Sem XR XC Unit} (W : Two Γ X S S') {n : Nat} {hi : IExp} {ds : List (Nat × Nat × Nat)} {body : Stmt} {E E' : TEnv}
    (h : tyCombs X n hi ds body E = some E') {Φ Φ' : Vals} (hE : EnvDen Γ X E Φ Φ') :
    FlowOk Γ X ((Stmt.loop n 0 false hi 1 (.seq (.spins ds (.var n)) body)).exec S) ((Stmt.loop n 0 false hi 1 (.seq (.spins ds (.var n)) body)).exec S') E Φ Φ' (.next E') := by
  obtain ⟨ns, k, E2, T, H, rfl⟩ := tyCombs_some (Γ := Γ) h
  have hlen : ns.length = ds.length := by rw [optMap_length H.syms, List.length_map]
  have hz : Den Γ X .c .zero (fun _ => ofC 0) (fun _ => ofC 0) := ⟨⟨fun _ => ofC 0, fun _ => ofC 0, fun _ => rfl, fun _ => rfl⟩, fun _ _ _ => ⟨rfl, rfl⟩⟩
  have hE0 : EnvDen Γ X (E.forget (.loop n 0 false hi 1 (.seq (.spins ds (.var n)) body))) Φ Φ' := fun t m b v hm => hE t m b v (forget_g hm).2.2.2
  have hEb : EnvDen Γ X ((hideSpins (E.forget (.loop n 0 false hi 1 (.seq (.spins ds (.var n)) body))) ds).set .c k (some (true, .zero)))
      (Φ.put .c k fun _ => ofC 0) (Φ'.put .c k fun _ => ofC 0) := by
    refine EnvDen.set (fun t m b v hm => ?_) k hz
    rw [hideSpins_g] at hm
    exact hE0 t m b v hm
  obtain ⟨Φ2, Φ2', hE2, hr, hr'⟩ := stmtTy_sound W body _ _ _ _ H.body hEb
  have hG := hE2 _ _ _ _ H.res
  have vals : ∀ (σ : Sem XR XC Unit) (Ψ Ψ2 : Vals), (∀ t m d, E.g t m = some (false, .scal d) → ∃ f : ℝ → t.den XR XC, ∀ ρ, Ψ t m ρ = f (nrm X.ns ρ)) →
      Runs (body.exec σ) ((hideSpins (E.forget (.loop n 0 false hi 1 (.seq (.spins ds (.var n)) body))) ds).set .c k (some (true, .zero)))
        (Ψ.put .c k fun _ => ofC 0) E2 Ψ2 →
      Runs ((Stmt.loop n 0 false hi 1 (.seq (.spins ds (.var n)) body)).exec σ) E Ψ
        ((E.forget (.loop n 0 false hi 1 (.seq (.spins ds (.var n)) body))).set .c k (some (false, .amp (vecSpins ds ns) T)))
        (Ψ.put .c k fun ρ => (counters0 (2 ^ zeros (ns.map ρ))).foldl (fun a j => a + combTerm (Ψ2 .c k) (vecSpins ds ns) ns ρ j) (Ψ .c k ρ)) := by
    intro σ Ψ Ψ2 hv hrun l ρ A hl
    obtain ⟨l2, e, hk, ha⟩ := combs_run H hv hrun hl (counters0 (2 ^ zeros (ns.map ρ))) l ⟨fun _ _ => rfl, fun _ _ _ => rfl⟩
    refine ⟨l2, ?_, fun m x hm => ?_, fun t m b v hm => ?_⟩
    · rw [Stmt.exec, isym_sound hl.i hi _ H.hiSym, IExp.eval, loopVals_counters, numLoops_toNat]; exact e
    · rw [TEnv.gi_set] at hm
      obtain ⟨f1, f2, -⟩ := forget_gi hm
      rw [hk.1 m f1]; exact hl.i m x f2
    · rw [TEnv.g_set] at hm
      split_ifs at hm with hc
      · obtain ⟨rfl, rfl⟩ := hc
        cases hm
        rw [Vals.put_same]
        show l2.c m = _
        rw [ha, show l.c m = Ψ .c m ρ from hl.v .c m _ _ H.acc]
        rfl
      · rw [Vals.put_other _ _ _ _ hc]
        obtain ⟨f1, rfl, ⟨d, rfl⟩, f2⟩ := forget_g hm
        rw [hk.2 t m f1]; exact hl.v t m _ _ f2
  refine ⟨_, _, EnvDen.set hE0 k ?_, vals S Φ Φ2 (fun t m d hm => ?_) hr, vals S' Φ' Φ2' (fun t m d hm => ?_) hr'⟩
  · intro ρ0 hfin
    obtain ⟨f0, fj⟩ := foldl_fin_head _ _ hfin
    have hzero := (hE .c k _ _ H.acc).2 ρ0 f0
    obtain ⟨G, G', hc, hk⟩ := hG _ (fj 0 (by
      simp only [counters0, List.mem_map, List.mem_range]
      exact ⟨0, Nat.pos_of_ne_zero (by positivity), rfl⟩))
    refine ⟨G, G', hc, fun ρ => ?_⟩
    have hnd := List.nodup_append.mp H.nodup
    have hfst := vecSpins_fst ds ns hlen
    have main : ∀ (K : Asg → ℂ) (D : Asg → XC), (∀ ρ, D ρ = ofC ((nrm X.ns ρ : ℂ) ^ T.deg * K ρ)) →
        (counters0 (2 ^ zeros (ns.map ρ))).foldl (fun a j => a + combTerm D (vecSpins ds ns) ns ρ j) (ofC 0) = ofC (appAll (mixAll (vecSpins ds ns)) K ρ) := by
      intro K D hD
      have hterm : ∀ j, combTerm D (vecSpins ds ns) ns ρ j = ofC ((nrm X.ns ρ : ℂ) * K (putSpins ρ (vecSpins ds ns) (spinsRec (ns.map ρ) j))) := by
        intro j
        unfold combTerm
        rw [hD, H.deg, pow_one]
        have : nrm X.ns (putSpins ρ (vecSpins ds ns) (spinsRec (ns.map ρ) j)) = nrm X.ns ρ :=
          nrm_congr fun m hm => putSpins_other _ _ _ _ fun hs => hnd.2.2 m (by rw [H.nsX]; exact hm) m hs rfl
        rw [this]
      rw [foldl_ofC hterm, ofC_inj, zero_add, ← Finset.mul_sum]
      have e := amp'_mix K (vecSpins ds ns) ρ (by
        intro d hd hs
        exact hnd.2.2 d.1 (by rw [← hfst]; exact List.mem_map_of_mem hd) d.1 hs rfl)
      rw [← e]
      unfold amp'
      have e2 : (vecSpins ds ns).map (fun d => ρ d.1) = ns.map ρ := by
        conv_rhs => rw [← hfst, List.map_map]
        rfl
      rw [e2, ← H.nsX]
      rfl
    simp only [(hzero ρ).1, (hzero ρ).2]
    exact ⟨main G _ fun ρ => (hk ρ).1, main G' _ fun ρ => (hk ρ).2⟩
  · obtain ⟨f, f', h1, -⟩ := den_via (hE t m _ _ hm); exact ⟨f, h1⟩
  · obtain ⟨f, f', -, h1⟩ := den_via (hE t m _ _ hm); exact ⟨f', h1⟩

end Spinas.SM
