import Verif.SM.Calls

/-! Copies of a process object.

No class has a copy constructor or an assignment operator of its own: the implicit ones copy every member.  The pointers in an `sproduct` (include/sproduct.h:31-32) are copied too,
so the products of the copy go on using the particles of the object that was copied; `set_momentum` and `set_mass` in the methods of the copy act on the particles of the copy. -/

namespace Spinas.SM

/-- An object (alive) and a copy of it. -/
structure Copied (R C : Type) where
  orig : Obj R C
  copy : Obj R C

namespace Copied
variable {R C : Type}

/-- `P b = a;` -/
def of (o : Obj R C) : Copied R C := ⟨o, o⟩

/-- what the copy uses: its own members and products, the particles of the original -/
def view (x : Copied R C) : Obj R C := { x.copy with w := ⟨x.orig.w.part, x.copy.w.sp⟩ }

/-- the pair after a change of what the copy uses -/
def putView (x : Copied R C) (v : Obj R C) : Copied R C := ⟨{ x.orig with w := ⟨v.w.part, x.orig.w.sp⟩ }, { v with w := ⟨x.copy.w.part, v.w.sp⟩ }⟩

variable [Scalar R] [HasPow R] [Cplx R C]

/-- One statement of `set_momenta` of the copy: `update` works on the particles of the original, everything else on members of the copy (`sproduct` is not constructed there). -/
def step (junk : Kin R C) (par : Nat → R) (q : Nat → V4 R) : SInstr → Prog (Copied R C) Unit
  | .update a => fun x => let r := SInstr.exec junk par q (.update a) x.view; (r.1, x.putView r.2)
  | i => fun x => let r := i.exec junk par q x.copy; (r.1, { x with copy := r.2 })

def run (junk : Kin R C) (par : Nat → R) (q : Nat → V4 R) : List SInstr → Prog (Copied R C) Unit
  | [] => pure ()
  | i :: is => do step junk par q i; run junk par q is

/-- `set_momenta` of the copy -/
def setMomenta (P : Proc) (junk : Kin R C) (q : Nat → V4 R) : Prog (Copied R C) Unit := run junk (fun _ => int 0) q P.setMomenta

/-- a method of the original, `true`, or of the copy -/
def call (P : Proc) (b : Bool) (l : Loc R C) (t : Ty) (k : Nat) (args : List Int) : Prog (Copied R C) (t.den R C) := fun x => match b with
  | true => let r := P.method l t k args x.orig; (r.1, { x with orig := r.2 })
  | false => let r := P.method l t k args x.view; (r.1, x.putView r.2)

/-- State after some calls of methods; the outcomes are ignored (exceptions are caught). -/
def calls (P : Proc) : List (Bool × MCall R C) → Copied R C → Copied R C
  | [], x => x
  | y :: ys, x => calls P ys (call P y.1 y.2.junk y.2.t y.2.k y.2.args x).2
end Copied

/-! ### the statements of `set_momenta` -/

section
variable {R C : Type} [Scalar R] [HasPow R] [Cplx R C]

/-- Calls of methods fill caches of particles. -/
theorem method_ext (P : Proc) (junk : Loc R C) (t : Ty) (k : Nat) (args : List Int) (o : Obj R C) (i : Nat) : Ext (o.w.part i) ((P.method junk t k args o).2.w.part i) := by
  have key : Keeps (fun w : World R C => ∀ i, Ext (o.w.part i) (w.part i)) (invoke o.r o.c Proc.vcall junk t P.methods k args) := by
    refine keeps_invoke (fun b args w hw => ?_) junk t P.methods k args
    rcases vcall_cases (R := R) (C := C) b args with ⟨c, hc⟩ | hc <;> rw [hc]
    · exact fun i => (hw i).trans ((frame_v (R := R) (C := C) b c w).1 i)
    · exact hw
  exact key o.w (fun i => .refl _) i

theorem runCalls_ext (P : Proc) : ∀ (xs : List (MCall R C)) (o : Obj R C) (i : Nat), Ext (o.w.part i) ((runCalls P xs o).w.part i)
  | [], _, _ => .refl _
  | x :: xs, o, i => (method_ext P x.junk x.t x.k x.args o i).trans (runCalls_ext P xs _ i)

theorem runCalls_inv {S : Sym} {par : Nat → R} (P : Proc) : ∀ (xs : List (MCall R C)) {o : Obj R C}, Inv S par o → Inv S par (runCalls P xs o)
  | [], _, h => h
  | x :: xs, _, h => runCalls_inv P xs (method_inv h P x.junk x.t x.k x.args)

theorem Proc.setMomenta_eq {P : Proc} (h : isPrefix P.setMomenta = true) : P.setMomenta = ((List.range' 0 4).map fun i => SInstr.setMom i i) ++ P.rest := by
  unfold Proc.rest
  revert h
  unfold isPrefix
  split
  · rename_i l heq; intro _; rw [heq]; rfl
  · intro h; cases h

namespace Copied

theorem run_own (junk : Kin R C) (par : Nat → R) (q : Nat → V4 R) (rest : List SInstr) (a : Obj R C) : ∀ (l : List Nat) (b : Obj R C) {b' : Obj R C},
    runSetup junk par q (l.map fun i => SInstr.setMom i i) b = (.ok (), b') → run junk par q ((l.map fun i => SInstr.setMom i i) ++ rest) ⟨a, b⟩ = run junk par q rest ⟨a, b'⟩
  | [], b, b', h => by
    cases h; rfl
  | i :: l, b, b', h => by
    have h0 : (SInstr.exec junk par q (.setMom i i) >>= fun _ => runSetup junk par q (l.map fun i => SInstr.setMom i i)) b = (.ok (), b') := h
    show (step junk par q (.setMom i i) >>= fun _ => run junk par q ((l.map fun i => SInstr.setMom i i) ++ rest)) ⟨a, b⟩ = _
    cases h1 : SInstr.exec junk par q (.setMom i i) b with
    | mk x b1 =>
      cases x with
      | ok u =>
        rw [Prog.bind_ok h1] at h0
        have e : step junk par q (.setMom i i) ⟨a, b⟩ = (.ok (), (⟨a, b1⟩ : Copied R C)) := by
          show (((SInstr.exec junk par q (.setMom i i) b).1, (⟨a, (SInstr.exec junk par q (.setMom i i) b).2⟩ : Copied R C)) : Res Unit × Copied R C) = _
          rw [h1]
        rw [Prog.bind_ok e]
        exact run_own junk par q rest a l b1 h0
      | throw e =>
        have : (SInstr.exec junk par q (.setMom i i) >>= fun _ => runSetup junk par q (l.map fun i => SInstr.setMom i i)) b = (.throw e, b1) := Prog.bind_throw h1
        rw [this] at h0; cases h0
      | crash =>
        have : (SInstr.exec junk par q (.setMom i i) >>= fun _ => runSetup junk par q (l.map fun i => SInstr.setMom i i)) b = (.crash, b1) := Prog.bind_crash h1
        rw [this] at h0; cases h0

/-- The rest of `set_momenta` is run on what the copy uses. -/
theorem run_view {S : Sym} (junk : Kin R C) (par : Nat → R) (q : Nat → V4 R) : ∀ (is : List SInstr) {r c u r' c' u' : List Bool}, restCheck S is r c u = some (r', c', u') →
    ∀ {x : Copied R C} {v : Obj R C}, runSetup junk par q is x.view = (.ok (), v) → run junk par q is x = (.ok (), x.putView v)
  | [], _, _, _, _, _, _, _, x, v, h => by cases h; rfl
  | i :: is, r, c, u, r', c', u', hc, x, v, h => by
    have h0 : (SInstr.exec junk par q i >>= fun _ => runSetup junk par q is) x.view = (.ok (), v) := h
    show (step junk par q i >>= fun _ => run junk par q is) x = _
    cases h1 : SInstr.exec junk par q i x.view with
    | mk y v1 =>
      cases y with
      | throw e =>
        rw [show (SInstr.exec junk par q i >>= fun _ => runSetup junk par q is) x.view = (.throw e, v1) from Prog.bind_throw h1] at h0; cases h0
      | crash =>
        rw [show (SInstr.exec junk par q i >>= fun _ => runSetup junk par q is) x.view = (.crash, v1) from Prog.bind_crash h1] at h0; cases h0
      | ok z =>
        rw [Prog.bind_ok h1] at h0
        have go : ∀ {r1 c1 u1 : List Bool}, restCheck S is r1 c1 u1 = some (r', c', u') → step junk par q i x = (.ok (), x.putView v1) →
            (step junk par q i >>= fun _ => run junk par q is) x = (.ok (), x.putView v) := by
          intro r1 c1 u1 h2 e
          rw [Prog.bind_ok e]
          exact run_view junk par q is h2 (x := x.putView v1) h0
        cases i with
        | set t n e =>
          cases t with
          | r =>
            simp only [restCheck] at hc
            split_ifs at hc
            exact go hc (by cases h1; rfl)
          | c =>
            simp only [restCheck] at hc
            split_ifs at hc
            exact go hc (by cases h1; rfl)
        | part i e => cases hc
        | setMass i e => cases hc
        | setMom i k => cases hc
        | prop k m w => cases hc
        | propMass k e => cases hc
        | sprod a d => cases hc
        | update a =>
          simp only [restCheck] at hc
          split_ifs at hc
          refine go hc ?_
          show (((SInstr.exec junk par q (.update a) x.view).1, x.putView (SInstr.exec junk par q (.update a) x.view).2) : Res Unit × Copied R C) = _
          rw [h1]
        | den t n k v =>
          cases t with
          | r =>
            simp only [restCheck] at hc
            split_ifs at hc
            exact go hc (by cases h1; rfl)
          | c =>
            simp only [restCheck] at hc
            split_ifs at hc
            exact go hc (by cases h1; rfl)
end Copied
end
end Spinas.SM
