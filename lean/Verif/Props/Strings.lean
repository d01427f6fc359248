import Verif.Utilities
import Verif.CVector
import Verif.Exact.Algebra

/-! Properties C56, C57: Mathematica strings. -/

namespace Spinas.Spec

/-- The characters `" 10^"` that Mathematica needs in place of the exponent marker of C++. -/
def power10 : List Char := [' ', '1', '0', '^']

/-- `s` is `t` with the first occurrence of the character `e`, if any, replaced by `w`. -/
def FirstReplaced (e : Char) (w t s : List Char) : Prop :=
  (e ∉ t ∧ s = t) ∨ ∃ a b, e ∉ a ∧ t = a ++ e :: b ∧ s = a ++ w ++ b

/-- the texts C++ streams print for finite numbers in default notation: sign, digits, at most one point, at most one exponent -/
def Printed (t : List Char) : Prop :=
  ∃ m x : List Char, (∀ c ∈ m, c.isDigit = true ∨ c = '-' ∨ c = '.') ∧ (∀ c ∈ x, c.isDigit = true ∨ c = '-' ∨ c = '+') ∧
    (t = m ∨ t = m ++ 'e' :: x)

end Spinas.Spec

namespace Spinas.Props
open Spinas Spec

theorem replaceE_first (t : List Char) : FirstReplaced 'e' power10 t (Util.replaceE t) := by
  induction t with
  | nil => exact .inl ⟨by simp, rfl⟩
  | cons c cs ih =>
    unfold Util.replaceE
    by_cases hc : c = 'e'
    · rw [if_pos hc]
      exact .inr ⟨[], cs, by simp, by simp [hc], rfl⟩
    · rw [if_neg hc]
      rcases ih with ⟨h1, h2⟩ | ⟨a, b, h1, h2, h3⟩
      · exact .inl ⟨by simp [h1, Ne.symm hc], by rw [h2]⟩
      · exact .inr ⟨c :: a, b, by simp [h1, Ne.symm hc], by simp [h2], by simp [h3]⟩

/-- **C56.** `double_to_Mathematica_string` replaces the exponent marker, and nothing else, by a power of ten: the result is the
printed number with the first `e`, if any, replaced by ` 10^`.  (Any text the stream may print.) -/
theorem C56_first {R : Type} (fmt : R → List Char) (x : R) :
    FirstReplaced 'e' power10 (fmt x) (Util.doubleToMathematica fmt x) := replaceE_first _

/-- **C56, no marker is left.** If the stream prints numbers in its default notation no `e` remains, and the printed number can be
recovered: different printed numbers have different Mathematica strings. -/
theorem C56_faithful {R : Type} (fmt : R → List Char) (x y : R) (hx : Printed (fmt x)) (hy : Printed (fmt y)) :
    'e' ∉ Util.doubleToMathematica fmt x ∧
    (Util.doubleToMathematica fmt x = Util.doubleToMathematica fmt y ↔ fmt x = fmt y) := by
  have dig : ∀ c : Char, c.isDigit = true → c ≠ 'e' ∧ c ≠ ' ' := by
    intro c hc
    constructor <;> (rintro rfl; revert hc; decide)
  have me : ∀ m : List Char, (∀ c ∈ m, c.isDigit = true ∨ c = '-' ∨ c = '.') → 'e' ∉ m ∧ ' ' ∉ m := by
    intro m hm
    constructor
    · intro h; rcases hm _ h with h | h | h
      · exact (dig _ h).1 rfl
      · revert h; decide
      · revert h; decide
    · intro h; rcases hm _ h with h | h | h
      · exact (dig _ h).2 rfl
      · revert h; decide
      · revert h; decide
  have xe : ∀ m : List Char, (∀ c ∈ m, c.isDigit = true ∨ c = '-' ∨ c = '+') → 'e' ∉ m := by
    intro m hm h; rcases hm _ h with h | h | h
    · exact (dig _ h).1 rfl
    · revert h; decide
    · revert h; decide
  have nomark : ∀ m : List Char, 'e' ∉ m → Util.replaceE m = m := by
    intro m hm
    rcases replaceE_first m with ⟨_, h⟩ | ⟨a, b, _, h, _⟩
    · exact h
    · exact absurd (by rw [h]; simp) hm
  have split : ∀ (a b a' b' : List Char) (c : Char), c ∉ a → c ∉ a' → a ++ c :: b = a' ++ c :: b' → a = a' ∧ b = b' := by
    intro a
    induction a with
    | nil =>
      intro b a' b' c _ h' h
      cases a' with
      | nil => simpa using h
      | cons d a' => simp only [List.nil_append, List.cons_append, List.cons.injEq] at h; exact absurd (by simp [h.1]) h'
    | cons d a ih =>
      intro b a' b' c h0 h' h
      cases a' with
      | nil => simp only [List.nil_append, List.cons_append, List.cons.injEq] at h; exact absurd (by simp [h.1]) h0
      | cons d' a' =>
        simp only [List.cons_append, List.cons.injEq] at h
        obtain ⟨h1, h2⟩ := ih b a' b' c (fun hc => h0 (List.mem_cons_of_mem _ hc)) (fun hc => h' (List.mem_cons_of_mem _ hc)) h.2
        exact ⟨by rw [h.1, h1], h2⟩
  have mark : ∀ m x : List Char, 'e' ∉ m → Util.replaceE (m ++ 'e' :: x) = m ++ power10 ++ x := by
    intro m x hm
    rcases replaceE_first (m ++ 'e' :: x) with ⟨h, _⟩ | ⟨a, b, ha, h, h3⟩
    · exact absurd (by simp) h
    · obtain ⟨rfl, rfl⟩ := split _ _ _ _ _ hm ha h
      exact h3
  have pe : 'e' ∉ power10 := by decide
  unfold Util.doubleToMathematica
  obtain ⟨m, u, hm, hu, hx⟩ := hx
  obtain ⟨m', u', hm', hu', hy⟩ := hy
  refine ⟨?_, ⟨fun h => ?_, fun h => by rw [h]⟩⟩
  · rcases hx with hx | hx
    · rw [hx, nomark _ (me m hm).1]; exact (me m hm).1
    · rw [hx, mark _ _ (me m hm).1]
      simp only [List.mem_append, not_or]
      exact ⟨⟨(me m hm).1, pe⟩, xe u hu⟩
  · rcases hx with hx | hx <;> rcases hy with hy | hy
    · rw [hx, hy, nomark _ (me m hm).1, nomark _ (me m' hm').1] at h; rw [hx, hy, h]
    · rw [hx, hy, nomark _ (me m hm).1, mark _ _ (me m' hm').1] at h
      exact absurd (by rw [h]; simp [power10]) (me m hm).2
    · rw [hx, hy, mark _ _ (me m hm).1, nomark _ (me m' hm').1] at h
      exact absurd (by rw [← h]; simp [power10]) (me m' hm').2
    · rw [hx, hy, mark _ _ (me m hm).1, mark _ _ (me m' hm').1] at h
      simp only [power10, List.append_assoc, List.cons_append, List.nil_append] at h
      obtain ⟨h1, h2⟩ := split _ _ _ _ _ (me m hm).2 (me m' hm').2 h
      simp only [List.cons.injEq, true_and] at h2
      rw [hx, hy, h1, h2]

/-- the hypotheses are met by `-1.25e-07`, whose string is `-1.25 10^-07` -/
example : Printed "-1.25e-07".toList ∧ Util.doubleToMathematica (fun _ : Unit => "-1.25e-07".toList) () = "-1.25 10^-07".toList :=
  ⟨⟨"-1.25".toList, "-07".toList, by decide, by decide, .inr (by decide)⟩, by decide⟩

/-- **C57.** The Mathematica strings of matrices and vectors do not use that replacement: any exponent marker printed for a component
is still in the string, as in `1e-05`, which Mathematica reads as `1*e-5`; the Mathematica string of a matrix is its plain
string. -/
theorem C57_marker_left {R C : Type} [Scalar R] [Cplx R C] (fmt : R → List Char) (m : CMat C) (v : CVec C) :
    (∀ i j, ('e' ∈ fmt (Cplx.re (m.entry i j)) ∨ 'e' ∈ fmt (Cplx.im (m.entry i j))) → 'e' ∈ Util.matString fmt m) ∧
    (('e' ∈ fmt (Cplx.re v.v0) ∨ 'e' ∈ fmt (Cplx.im v.v0) ∨ 'e' ∈ fmt (Cplx.re v.v1) ∨ 'e' ∈ fmt (Cplx.im v.v1)) →
      'e' ∈ Util.vecString fmt v) := by
  constructor
  · intro i j h
    unfold Util.matString
    simp only [List.mem_append]
    cases i <;> cases j <;> rcases h with h | h <;> simp only [CMat.entry] at h <;> simp only [h, true_or, or_true]
  · intro h
    unfold Util.vecString
    simp only [List.mem_append]
    rcases h with h | h | h | h <;> simp only [h, true_or, or_true]

section
attribute [local instance] doubleEnv
open Classical in
/-- such a matrix: a formatting that prints 1e-05 for nonzero numbers, and the unit matrix -/
example : 'e' ∈ Util.matString (R := XR) (fun x => if x = XR.fin 1 then "1e-05".toList else "0".toList) (XM 1) :=
  (C57_marker_left _ _ ⟨ofC 0, ofC 0⟩).1 false false (.inl (by simp [CMat.entry, XM]))
end

end Spinas.Props
