import Verif.Props.AnyArith
import Verif.Props.Demo

/-! # Exact arithmetic has the symmetries -/

namespace Verif.Gen

namespace XRsym
theorem sub_swap (a b : XR) : a - b = -(b - a) := by
  show a + -b = -(b + -a)
  cases a <;> cases b <;> first | rfl | (show XR.fin _ = XR.fin _; congr 1; ring)
theorem neg_add (a b : XR) : -a + -b = -(a + b) := by
  cases a <;> cases b <;> first | rfl | (show XR.fin _ = XR.fin _; congr 1; ring)
theorem infOfSign_neg (r : ℝ) : XR.infOfSign (-r) = -XR.infOfSign r := by
  unfold XR.infOfSign
  rcases lt_trichotomy r 0 with h | h | h
  · rw [if_pos (by linarith), if_neg (by linarith), if_pos h]; rfl
  · subst h; simp
  · rw [if_neg (by linarith), if_pos (by linarith), if_pos h]; rfl
theorem neg_neg (a : XR) : - -a = a := by
  cases a <;> first | rfl | (show XR.fin _ = XR.fin _; congr 1; ring)
theorem mul_neg (a b : XR) : a * -b = -(a * b) := by
  cases a <;> cases b <;> first | rfl | (show XR.fin _ = XR.fin _; congr 1; ring) | exact infOfSign_neg _ |
    (show XR.infOfSign _ = -XR.infOfSign (-_); rw [infOfSign_neg, neg_neg])
theorem neg_mul (a b : XR) : -a * b = -(a * b) := by
  cases a <;> cases b <;> first | rfl | (show XR.fin _ = XR.fin _; congr 1; ring) | exact infOfSign_neg _ |
    (show XR.infOfSign _ = -XR.infOfSign (-_); rw [infOfSign_neg, neg_neg])
theorem sum_neg (l : List XR) : (l.map fun x => -x).sum = -l.sum := by
  induction l with
  | nil => show (XR.fin 0) = XR.fin (-0); rw [_root_.neg_zero]
  | cons a l ih => rw [List.map_cons, List.sum_cons, List.sum_cons, ih, neg_add]
end XRsym
open XRsym

theorem XR.mirror : Mirror XR where
  sq x y := by
    show (x - y) * (x - y) = (y - x) * (y - x)
    rw [sub_swap x y, neg_mul, mul_neg, neg_neg]
  add x y := by cases x <;> cases y <;> first | rfl | (show XR.fin _ = XR.fin _; congr 1; ring)

theorem XR.mirrorForm : MirrorForm XR := by
  intro v w B d
  have e1 : List.zipWith (· - ·) v w = (List.zipWith (· - ·) w v).map fun x => -x := by
    rw [List.map_zipWith, List.zipWith_comm]
    congr 1
    funext x y
    exact sub_swap y x
  have e2 : ∀ l : List XR, (l.map fun x => -x).map (Arith.negHalf * ·) = (l.map (Arith.negHalf * ·)).map fun x => -x := by
    intro l
    rw [List.map_map, List.map_map]
    congr 1
    funext x
    exact mul_neg _ x
  have e3 : ∀ (l : List XR) (j : ℕ), Arith.vm (l.map fun x => -x) B j = -Arith.vm l B j := by
    intro l j
    show (List.zipWith (· * ·) _ _).sum = -(List.zipWith (· * ·) _ _).sum
    rw [← sum_neg, List.zipWith_map_left, List.map_zipWith]
    simp only [neg_mul]
  rw [e1, e2]
  simp only [e3]
  generalize List.zipWith (· - ·) w v = l
  generalize l.map (Arith.negHalf * ·) = m
  show (List.zipWith (· * ·) _ _).sum = (List.zipWith (· * ·) _ _).sum
  rw [List.zipWith_map_right, List.zipWith_map_left, List.zipWith_map_left]
  simp only [neg_mul, mul_neg, neg_neg]

theorem XR.invShape (d : ℕ) : InvShape XR d := by
  intro A B hA h
  obtain ⟨rfl, h2, -⟩ := hA
  simp only [Arith.inv, Arr2.inv, h2, if_true] at h
  split at h
  · split at h
    · cases h
    · injection h with h
      subst h
      refine ⟨rfl, by simp [Arr2.ofMatrix], ?_⟩
      intro r hr
      simp only [Arr2.ofMatrix, List.mem_ofFn] at hr
      obtain ⟨i, rfl⟩ := hr
      simp
  · injection h with h
    subst h
    refine ⟨rfl, by simp, ?_⟩
    intro r hr
    rw [List.eq_of_mem_replicate hr]
    simp

/-- Two orders of three samples with two labels: rCIP ends with the same value, if any. -/
example (x y z : XR) {vs ws : List XR} {o o' : Obj XR}
    (h : feed (mod XR .rCIP) [([x], 0), ([y], 1), ([z], 0)] (mod XR .rCIP).fresh = .ok vs o)
    (h' : feed (mod XR .rCIP) [([x], 0), ([z], 0), ([y], 1)] (mod XR .rCIP).fresh = .ok ws o') : vs.getLast? = ws.getLast? := by
  refine C65_rCIP (XR.invShape 1) XR.mirror XR.mirrorForm ?_ (?_ : Reordered _ _) h h'
  · intro p hp
    simp only [List.mem_cons, List.not_mem_nil, or_false] at hp
    rcases hp with rfl | rfl | rfl <;> rfl
  · refine ⟨rfl, fun c => ?_⟩
    by_cases h0 : c = 0
    · subst h0; rfl
    · by_cases h1 : c = 1
      · subst h1; rfl
      · simp [own, Ne.symm h0, Ne.symm h1]

end Verif.Gen
