import Verif.Gen.B64Specials
import Verif.Props.Degenerate64
import Verif.Props.AnyArithBatch

/-!
# C86: does a feature that is not finite show in the result?

In binary64, in whatever order the libraries add:

* a batch returns NaN if a row with a label has an infinite feature or NaN;
* so do incremental runs of CH, WB, PS and cSIL, as long as there are two clusters;
* so do incremental runs of XB, DB, GD43 and GD53 if the sample is not the only one of its cluster;
* but the compactness of a cluster of one sample is zero, whatever the sample is, and a distance that is infinite never is the smallest of three.
  So if the sample is alone in its cluster, XB, DB, GD43 and GD53 may return a finite number.  With two clusters, XB and DB return zero, which is the best
  possible value.
-/

namespace Verif.Gen
open Py B64

variable {L : Lib} {d : ℕ}

/-- A sample with label `c` has a feature that is infinite or NaN. -/
def Damaged (S : Samples (F64 L)) (c : ℤ) : Prop := ∃ x, (x, c) ∈ S ∧ ∃ a : F64 L, a ∈ x ∧ ¬ B64.Fin a

theorem Damaged.hit {S : Samples (F64 L)} (hS : S.Dim d) {c : ℤ} (h : Damaged S c) : ∃ x j, Hit (F := F64 L) Bad d S c x j := by
  obtain ⟨x, hx, a, ha, hb⟩ := h
  obtain ⟨j, hj, rfl⟩ := List.mem_iff_getElem.mp ha
  have hd : x.length = d := hS _ hx
  refine ⟨x, j, hS, hx, hd ▸ hj, ?_⟩
  rw [List.getD_eq_getElem?_getD, List.getElem?_eq_getElem hj]
  exact hb

theorem ne_nil_of_two {S : Samples (F64 L)} (hk : 2 ≤ (order S).length) : S ≠ [] := by rintro rfl; simp [order] at hk

/-- **C86**, what holds of CH, WB, PS and cSIL: while a sample has a feature that is not finite and there are two or more clusters, they return NaN. -/
theorem C86_partial (hL : L.AnyOrder d) (he : L.exp nan = nan) (I : Index) (hI : I = .CH ∨ I = .WB ∨ I = .PS ∨ I = .cSIL)
    (S : Samples (F64 L)) (hS : S.Dim d) (hk : 2 ≤ (order S).length) (c : ℤ) (hc : Damaged S c) :
    ∃ vs, (feed (mod (F64 L) I) S (mod (F64 L) I).fresh).val = .ok (vs ++ [F64.nan]) := by
  obtain ⟨x, j, H⟩ := hc.hit hS
  have h := F64.specials hL
  obtain ⟨vs, hv⟩ := run_last (I := I) (by rcases hI with rfl | rfl | rfl | rfl <;> simp) hS (ne_nil_of_two hk)
  refine ⟨vs, hv.trans ?_⟩
  have e : value d I S = F64.nan := by
    rcases hI with rfl | rfl | rfl | rfl
    exacts [H.CH h hk, H.WB h hk, H.PS h hk he, H.cSIL h hk]
  rw [e]

/-- **C86**, what holds of XB, DB, GD43 and GD53: if the sample is not the only one of its cluster, they return NaN. -/
theorem C86_shared (hL : L.AnyOrder d) (I : Index) (hI : I = .XB ∨ I = .DB ∨ I = .GD43 ∨ I = .GD53)
    (S : Samples (F64 L)) (hS : S.Dim d) (hk : 2 ≤ (order S).length) (c : ℤ) (hc : Damaged S c) (h2 : 2 ≤ (own S c).length) :
    ∃ vs, (feed (mod (F64 L) I) S (mod (F64 L) I).fresh).val = .ok (vs ++ [F64.nan]) := by
  obtain ⟨x, j, H⟩ := hc.hit hS
  have h := F64.specials hL
  obtain ⟨vs, hv⟩ := run_last (I := I) (by rcases hI with rfl | rfl | rfl | rfl <;> simp) hS (ne_nil_of_two hk)
  refine ⟨vs, hv.trans ?_⟩
  have e : value d I S = F64.nan := by
    rcases hI with rfl | rfl | rfl | rfl
    exacts [H.XB h hk h2, H.DB h hk h2, H.GD43 h hk h2, H.GD53 h hk h2]
  rw [e]

/-- **C86**, batches: if a row with a label among `0 … k-1` has a feature that is not finite, the value is NaN, for every class but rCIP. -/
theorem C86_batch (hL : L.AnyOrder d) (he : L.exp nan = nan) (I : Index) (hI : I ≠ .rCIP) (S : Samples (F64 L)) (E : List (List (F64 L)))
    (hS : S.Dim d) (hE : ∀ x ∈ E, x.length = d) (hk : 1 < (order S).length) (i : ℕ) (hi : i < (order S).length) (hc : Damaged S i)
    (o : Obj (F64 L)) (ho : o.core.isSetup = false) :
    ∃ s, batchCall d I S E o = .ok F64.nan { o with core := s } := by
  obtain ⟨x, j, H⟩ := hc.hit hS
  obtain ⟨s, h1, -⟩ := C70_batch I hI S E hS hE hk (fun _ => ⟨i, hi, x, H.mem⟩) o ho
  refine ⟨s, h1.trans ?_⟩
  have e : Batch.value d (order S).length (part S) (allRows S E) I = F64.nan :=
    (F64.specials hL).batch (fun i => H.own_dim i) hk hi H.mem_own H.lt H.bad hI fun _ => he
  rw [e]

/-! ## The libraries of the examples -/

theorem Lib.plain_anyOrder (d : ℕ) : Lib.plain.AnyOrder d := ⟨Lib.plain_dots d, Lib.plain_sums, Lib.plain_batchSums d, Lib.plain_sums⟩

theorem Lib.withExp_anyOrder (d : ℕ) : Lib.withExp.AnyOrder d :=
  ⟨Lib.withExp_dots d, Lib.withExp_sums, Lib.withExp_batchSums d, Lib.plain_sums⟩

/-- Two clusters; one sample of the second is infinite and not alone. -/
def outlier {L : Lib} : Samples (F64 L) := [([lit 1 10], 0), ([lit 7 1], 1), ([lit 3 10], 0), ([B64.inf true], 1)]

theorem outlier_dim : (outlier (L := L)).Dim 1 := by
  intro p hp
  simp only [outlier, List.mem_cons, List.not_mem_nil, or_false] at hp
  rcases hp with rfl | rfl | rfl | rfl <;> rfl

theorem outlier_damaged : Damaged (outlier (L := L)) 1 := ⟨[B64.inf true], by simp [outlier], B64.inf true, List.mem_cons_self, id⟩

example (I : Index) (hI : I = .XB ∨ I = .DB ∨ I = .GD43 ∨ I = .GD53) :
    ∃ vs, (feed (mod (F64 .plain) I) outlier (mod (F64 .plain) I).fresh).val = .ok (vs ++ [F64.nan]) :=
  C86_shared (Lib.plain_anyOrder 1) I hI outlier outlier_dim (by decide) 1 outlier_damaged (by decide)

example (I : Index) (hI : I = .CH ∨ I = .WB ∨ I = .PS ∨ I = .cSIL) :
    ∃ vs, (feed (mod (F64 .withExp) I) outlier (mod (F64 .withExp) I).fresh).val = .ok (vs ++ [F64.nan]) :=
  C86_partial (Lib.withExp_anyOrder 1) rfl I hI outlier outlier_dim (by decide) 1 outlier_damaged

example (I : Index) (hI : I ≠ .rCIP) :
    ∃ s, batchCall 1 I outlier [] (mod (F64 .withExp) I).fresh = .ok F64.nan { (mod (F64 .withExp) I).fresh with core := s } :=
  C86_batch (Lib.withExp_anyOrder 1) rfl I hI outlier [] outlier_dim (by simp) (by decide) 1 (by decide) outlier_damaged _ (by cases I <;> rfl)

/-! ## C86 is false -/

/-- Three clusters; the last has one sample, which is infinite. -/
def lonely : Samples (F64 .plain) := [([lit 1 10], 0), ([lit 7 1], 1), ([lit 3 10], 0), ([lit 8 1], 1), ([B64.inf false], 2)]

theorem lonely_dim : lonely.Dim 1 := by
  intro p hp
  simp only [lonely, List.mem_cons, List.not_mem_nil, or_false] at hp
  rcases hp with rfl | rfl | rfl | rfl | rfl <;> rfl

theorem lonely_damaged : Damaged lonely 2 := ⟨[B64.inf false], by simp [lonely], B64.inf false, List.mem_cons_self, id⟩

theorem lonely_pos {I : Index} (hI : I = .XB ∨ I = .DB ∨ I = .GD43 ∨ I = .GD53) : isPos (value (F := F64 .plain) 1 I lonely) = true := by
  rcases hI with rfl | rfl | rfl | rfl <;> decide +kernel

/-- **C86** is false: with an infinite sample these classes return a positive number, and a batch of the same samples returns NaN. -/
theorem C86_false (I : Index) (hI : I = .XB ∨ I = .DB ∨ I = .GD43 ∨ I = .GD53) :
    ∃ S : Samples (F64 .plain), S.Dim 1 ∧ Damaged S 2 ∧
      (∃ vs v, (feed (mod (F64 .plain) I) S (mod (F64 .plain) I).fresh).val = .ok (vs ++ [v]) ∧ B64.Fin v ∧ 0 < val v) ∧
      ∃ s, batchCall 1 I S [] (mod (F64 .plain) I).fresh = .ok F64.nan { (mod (F64 .plain) I).fresh with core := s } := by
  have hr : I ≠ .rCIP := by rcases hI with rfl | rfl | rfl | rfl <;> simp
  refine ⟨lonely, lonely_dim, lonely_damaged, ?_, ?_⟩
  · obtain ⟨vs, h⟩ := run_last (I := I) hr lonely_dim (List.cons_ne_nil _ _)
    have hp := isPos_spec (lonely_pos hI)
    exact ⟨vs, _, h, hp.1, hp.2⟩
  · exact C86_batch (Lib.plain_anyOrder 1) rfl I hr lonely [] lonely_dim (by simp) (by decide) 2 (by decide) lonely_damaged _ (by cases I <;> rfl)

/-! ## With two clusters XB and DB return zero -/

namespace B64

/-- Zero of either sign -/
def IsZero (a : B64) : Prop := ∃ s, a = fin s 0

/-- Not NaN, and the sign bit is clear -/
def Up : B64 → Prop
  | fin s _ => s = false
  | inf s => s = false
  | nan => False

theorem up_ofMag (a b : ℕ) : Up (ofMag false a b) := by
  unfold ofMag; split <;> rfl

attribute [local irreducible] ofMag

theorem up_square {a : B64} (h : a ≠ nan) : Up (mul a a) := by
  cases a with
  | fin s m => unfold mul; simp only [Bool.xor_self]; exact up_ofMag _ _
  | inf s => cases s <;> rfl
  | nan => exact absurd rfl h

theorem up_add {a b : B64} (ha : Up a) (hb : Up b) : Up (add a b) := by
  cases a with
  | fin s m =>
    obtain rfl : s = false := ha
    cases b with
    | fin t n =>
      obtain rfl : t = false := hb
      unfold add
      dsimp only
      split
      · rfl
      · unfold ofInt
        have h : ¬ (signed false m + signed false n < 0) := by simp only [signed, Bool.false_eq_true, if_false]; omega
        rw [decide_eq_false h]
        exact up_ofMag _ _
    | inf t => exact hb
    | nan => exact hb.elim
  | inf s =>
    obtain rfl : s = false := ha
    cases b with
    | fin t n => rfl
    | inf t => obtain rfl : t = false := hb; rfl
    | nan => exact hb.elim
  | nan => exact ha.elim

theorem add_zero_up {a : B64} (s : Bool) (ha : Up a) : Up (add (fin s 0) a) := by
  cases a with
  | fin t n =>
    obtain rfl : t = false := ha
    unfold add
    dsimp only
    split
    · exact Bool.and_false s
    · unfold ofInt
      have h : ¬ (signed s 0 + signed false n < 0) := by cases s <;> simp [signed]
      rw [decide_eq_false h]
      exact up_ofMag _ _
  | inf t => exact ha
  | nan => exact ha.elim

theorem SumOf.up {l : List B64} {v : B64} (h : SumOf l v) : l ≠ [] → (∀ a ∈ l, Up a) → Up v := by
  induction h with
  | nil s => exact fun h => absurd rfl h
  | one a => exact fun _ h => h a (by simp)
  | zero s a => exact fun _ h => add_zero_up s (h a (by simp))
  | add h1 h2 _ _ ih ih' =>
    exact fun _ h => up_add (ih h1 fun a ha => h a (by simp [ha])) (ih' h2 fun a ha => h a (by simp [ha]))
  | perm hp _ ih => exact fun hn h => ih (fun e => hn (by subst e; exact hp.nil_eq.symm)) fun a ha => h a (hp.mem_iff.mp ha)

theorem Up.ne_nan {a : B64} (h : Up a) : a ≠ nan := by rintro rfl; exact h

theorem add_fin_ne_nan {a b : B64} (ha : Fin a) (hb : b ≠ nan) : add a b ≠ nan := by
  cases a with
  | fin s m =>
    cases b with
    | fin t n => unfold add; dsimp only; split; · simp
                 unfold ofInt ofMag; split <;> simp
    | inf t => simp [add]
    | nan => exact absurd rfl hb
  | inf s => exact ha.elim
  | nan => exact ha.elim

theorem neg_ne_nan {a : B64} (h : a ≠ nan) : neg a ≠ nan := by
  cases a with
  | fin s m => simp [neg]
  | inf s => simp [neg]
  | nan => exact absurd rfl h

theorem sub_ne_nan {a b : B64} (h : Fin a ∧ b ≠ nan ∨ a ≠ nan ∧ Fin b) : sub a b ≠ nan := by
  rcases h with ⟨ha, hb⟩ | ⟨ha, hb⟩
  · exact add_fin_ne_nan ha (neg_ne_nan hb)
  · rw [sub, add_swap]
    refine add_fin_ne_nan ?_ ha
    cases b with
    | fin s m => trivial
    | inf s => exact hb.elim
    | nan => exact hb.elim

theorem val_zero : val (fin false 0) = 0 := by rw [val_fin]; simp [signed]

theorem η_le : η ≤ Ω / 4 := by
  have h1 : lam ≤ 1 := by
    unfold lam
    exact zpow_le_one_of_nonpos₀ (by norm_num) (by norm_num)
  have h2 := one_le_Ω
  have h3 : η = lam / 2 := rfl
  linarith

theorem zero_add_fin {z : B64} (hz : Fin z) (hb : |val z| ≤ Ω / 2) : Fin (add (fin false 0) z) ∧ |val (add (fin false 0) z)| ≤ Ω := by
  have hΩ : (0 : ℝ) ≤ Ω := by have := abs_nonneg (val z); linarith
  have hu : u ≤ 1 := by unfold u; norm_num
  have e := add_error (a := fin false 0) (b := z) trivial hz (by rw [val_zero, zero_add]; linarith)
  rw [val_zero, zero_add] at e
  refine ⟨e.1.isFin, ?_⟩
  have h3 := mul_le_mul_of_nonneg_right hu (abs_nonneg (val z))
  have h4 := abs_sub_abs_le_abs_sub (val (add (fin false 0) z)) (val z)
  linarith [e.2]

theorem sum_zero_fin {p q : B64} (hp : p = fin false 0) (hq : Fin q) (hb : |val q| ≤ Ω / 2) :
    Fin (add (add (fin false 0) p) q) ∧ Fin (add (add (fin false 0) q) p) := by
  subst hp
  have hz : add (fin false 0) (fin false 0) = fin false 0 := rfl
  have h5 := zero_add_fin hq hb
  refine ⟨by rw [hz]; exact h5.1, ?_⟩
  exact (add_error (b := fin false 0) h5.1 trivial (by rw [val_zero, add_zero]; exact h5.2)).1.isFin

theorem mean_fin {a : B64} {n : ℕ} (h1 : 1 ≤ n) (hn : n < 2 ^ 53) (ha : Fin a) (hb : |val a| ≤ Ω / 2) :
    Fin (add (fin false 0) (div a (ofNat n))) ∧ Fin (add (div a (ofNat n)) (fin false 0)) := by
  have hc := ofNat_val hn
  have hn1 : (1 : ℝ) ≤ n := by exact_mod_cast h1
  have h0 : val (ofNat n) ≠ 0 := by rw [hc.2]; positivity
  have hle : |val a / val (ofNat n)| ≤ Ω / 2 := by
    rw [hc.2, abs_div, abs_of_pos (by linarith : (0 : ℝ) < n)]
    exact (div_le_self (abs_nonneg _) hn1).trans hb
  have hΩ : (0 : ℝ) ≤ Ω := by have := abs_nonneg (val a); linarith
  have e := div_error ha hc.1.isFin h0 (by linarith)
  have hu : u ≤ 1 / 2 := by unfold u; norm_num
  have h3 := mul_le_mul_of_nonneg_right hu (abs_nonneg (val a / val (ofNat n)))
  have h4 := abs_sub_abs_le_abs_sub (val (div a (ofNat n))) (val a / val (ofNat n))
  have hη : η ≤ Ω / 4 := η_le
  have h5 : |val (div a (ofNat n))| ≤ Ω := by linarith [e.2]
  refine ⟨(add_error (a := fin false 0) trivial e.1.isFin (by rw [val_zero, zero_add]; exact h5)).1.isFin, ?_⟩
  exact (add_error (b := fin false 0) e.1.isFin trivial (by rw [val_zero, add_zero]; exact h5)).1.isFin

theorem bad_sub {a b : B64} {s : Bool} (ha : a = inf s) (hb : Fin b) : Bad (sub a b) := by
  subst ha
  cases b with
  | fin t n => exact id
  | inf t => exact hb.elim
  | nan => exact hb.elim

theorem bad_sub' {a b : B64} {s : Bool} (ha : a = inf s) (hb : Fin b) : Bad (sub b a) := by
  subst ha
  cases b with
  | fin t n => exact id
  | inf t => exact hb.elim
  | nan => exact hb.elim

theorem div_inf {a : B64} (ha : Fin a) : IsZero (div a (inf false)) := by
  cases a with
  | fin s m => exact ⟨_, rfl⟩
  | inf s => exact ha.elim
  | nan => exact ha.elim

theorem ofNat_mul_inf {n : ℕ} (hn : 1 ≤ n) : mul (ofNat n) (inf false) = inf false := by
  have hpos : 0 < rndMag (n * unit) 1 := by
    have ha : 0 < n * unit := Nat.mul_pos hn unit_pos
    generalize n * unit = a at ha
    rw [rndMag_def, Nat.div_one, one_mul]
    have hs : 2 ^ (Nat.log2 a - 52) ≤ a :=
      (Nat.pow_le_pow_right (by norm_num) (Nat.sub_le _ _)).trans (Nat.log2_self_le (by omega))
    generalize Nat.log2 a - 52 = s at hs
    have h1 : 0 < a / 2 ^ s := Nat.div_pos hs (by positivity)
    refine Nat.mul_pos ?_ (by positivity)
    split <;> omega
  rw [ofNat, ofMag]
  split
  · simp only [mul, Bool.false_xor]
    rw [if_neg hpos.ne']
  · rfl

theorem IsZero.add {a b : B64} (ha : IsZero a) (hb : IsZero b) : IsZero (B64.add a b) := by
  obtain ⟨s, rfl⟩ := ha
  obtain ⟨t, rfl⟩ := hb
  refine ⟨s && t, ?_⟩
  unfold B64.add
  dsimp only
  rw [if_pos (by cases s <;> cases t <;> rfl)]

theorem IsZero.max2 {a b : B64} (ha : IsZero a) (hb : IsZero b) : IsZero (B64.max2 a b) := by
  unfold B64.max2
  obtain ⟨s, rfl⟩ := ha
  obtain ⟨t, rfl⟩ := hb
  split
  · rename_i h; cases h
  split
  · rename_i h; cases h
  split <;> exact ⟨_, rfl⟩

theorem SumOf.isZero {l : List B64} {v : B64} (h : SumOf l v) : (∀ a ∈ l, IsZero a) → IsZero v := by
  induction h with
  | nil s => exact fun _ => ⟨s, rfl⟩
  | one a => exact fun h => h a (by simp)
  | zero s a => exact fun h => IsZero.add ⟨s, rfl⟩ (h a (by simp))
  | add _ _ _ _ ih ih' => exact fun h => (ih fun a ha => h a (by simp [ha])).add (ih' fun a ha => h a (by simp [ha]))
  | perm hp _ ih => exact fun h => ih fun a ha => h a (hp.mem_iff.mp ha)

theorem IsZero.div_two {a : B64} (h : IsZero a) : IsZero (div a (ofNat 2)) := by
  obtain ⟨s, rfl⟩ := h
  have h2 := ofNat_val (n := 2) (by norm_num)
  have hp := plus_ofNat 2
  generalize ofNat 2 = b at h2 hp
  cases b with
  | fin t n =>
    have hn : n ≠ 0 := by
      rintro rfl
      have := h2.2
      rw [val_fin] at this
      simp [signed] at this
    unfold div
    dsimp only
    rw [if_neg hn, Nat.zero_mul, ofMag_zero _ (by omega)]
    exact ⟨_, rfl⟩
  | inf t => exact h2.1.isFin.elim
  | nan => exact h2.1.isFin.elim

end B64

theorem getD_eq {α : Type} {x : List α} {j : ℕ} (z : α) (hj : j < x.length) : x.getD j z = x[j] := by
  rw [List.getD_eq_getElem?_getD, List.getElem?_eq_getElem hj]; rfl

theorem getD_mem' {α : Type} {x : List α} {j : ℕ} (z : α) (hj : j < x.length) : x.getD j z ∈ x := by
  rw [getD_eq z hj]; exact List.getElem_mem hj

/-- Two clusters.  The one labelled `c` has a single sample, with no NaN and an infinite feature; the records of the other are finite. -/
structure Alone (d : ℕ) (S : Samples (F64 L)) (c b : ℤ) (x : List (F64 L)) : Prop where
  dim : S.Dim d
  two : order S = [c, b] ∨ order S = [b, c]
  own : own S c = [x]
  infinite : ∃ a : F64 L, a ∈ x ∧ ∃ s, a = B64.inf s
  ok : ∀ a : F64 L, a ∈ x → a ≠ B64.nan
  v : ∀ a : F64 L, a ∈ (stat S b).v → B64.Fin a
  cp : B64.Fin (stat S b).cp ∧ |val (stat S b).cp| ≤ Ω / 2
  few : S.length < 2 ^ 53

namespace Alone
variable {S : Samples (F64 L)} {c b : ℤ} {x : List (F64 L)} (A : Alone d S c b x)
include A

theorem stat_c : stat S c = Stat.one x := by rw [stat, A.own]; rfl

theorem memc : c ∈ order S := by rcases A.two with e | e <;> simp [e]
theorem memb : b ∈ order S := by rcases A.two with e | e <;> simp [e]

theorem ne : c ≠ b := by
  have := order_nodup S
  rcases A.two with e | e <;> rw [e] at this <;> simp at this
  exacts [this, Ne.symm this]

theorem xlen : x.length = d := by
  have := A.own ▸ (own_length S x A.dim : x ∈ Gen.own S c → _)
  exact this List.mem_cons_self

/-- The squared distance of the centroids is infinite. -/
theorem far (hs : L.Sums) : ∀ I, I = .XB ∨ I = .DB → between I (stat S c) (stat S b) = (B64.inf false : B64) ∧
    between I (stat S b) (stat S c) = (B64.inf false : B64) := by
  have hv := stat_v_length S A.memb A.dim
  obtain ⟨a, ha, s, rfl⟩ := A.infinite
  obtain ⟨j, hj, hja⟩ := List.mem_iff_getElem.mp ha
  have hx := A.xlen
  have key : ∀ u w : List B64, u.length = d → w.length = d →
      (∀ i < d, (B64.Fin (u.getD i (fin false 0)) ∧ w.getD i (fin false 0) ≠ nan ∨ u.getD i (fin false 0) ≠ nan ∧ B64.Fin (w.getD i (fin false 0)))) →
      (Bad (sub (u.getD j (fin false 0)) (w.getD j (fin false 0)))) →
      L.npSum ((List.zipWith sub u w).map fun a => mul a a) = inf false := by
    intro u w hu hw hok hbad
    have hz : ∀ a ∈ List.zipWith sub u w, a ≠ nan := by
      intro a ha
      obtain ⟨i, hi, rfl⟩ := List.mem_iff_getElem.mp ha
      rw [List.length_zipWith] at hi
      rw [List.getElem_zipWith]
      have h1 : u[i] = u.getD i (fin false 0) := by simp [List.getD_eq_getElem?_getD, show i < u.length by omega]
      have h2 : w[i] = w.getD i (fin false 0) := by simp [List.getD_eq_getElem?_getD, show i < w.length by omega]
      rw [h1, h2]
      exact sub_ne_nan (hok i (by omega))
    have hup := (hs ((List.zipWith sub u w).map fun a => mul a a)).up ?_ ?_
    · have hm : sub (u.getD j (fin false 0)) (w.getD j (fin false 0)) ∈ List.zipWith sub u w := by
        have hl : j < (List.zipWith sub u w).length := by simp [hu, hw]; omega
        have e : (List.zipWith sub u w)[j] = sub (u.getD j (fin false 0)) (w.getD j (fin false 0)) := by
          rw [List.getElem_zipWith]
          simp [List.getD_eq_getElem?_getD, show j < u.length by omega, show j < w.length by omega]
        rw [← e]; exact List.getElem_mem hl
      have hsq : mul (sub (u.getD j (fin false 0)) (w.getD j (fin false 0))) (sub (u.getD j (fin false 0)) (w.getD j (fin false 0))) = inf false := by
        rcases bad_square hbad with e | e
        · exact e
        · exact absurd e (up_square (hz _ hm)).ne_nan
      rcases (hs ((List.zipWith sub u w).map fun a => mul a a)).bad (B64.bad_inf false) (List.mem_map.mpr ⟨_, hm, hsq⟩) with e | e
      · exact e
      · exact absurd e hup.ne_nan
    · intro e
      have := congrArg List.length e
      simp [hu, hw] at this
      omega
    · intro a ha
      obtain ⟨z, hz', rfl⟩ := List.mem_map.mp ha
      exact up_square (hz z hz')
  have hxok : ∀ i < d, (x.getD i (fin false 0) : B64) ≠ nan := fun i hi =>
    A.ok _ (getD_mem' _ (by omega))
  have hvok : ∀ i < d, B64.Fin ((stat S b).v.getD i (fin false 0)) := fun i hi =>
    A.v _ (getD_mem' _ (by omega))
  have hxj : x.getD j (fin false 0) = (B64.inf s : B64) :=
    (getD_eq _ hj).trans hja
  have h1 := key x (stat S b).v hx hv (fun i hi => Or.inr ⟨hxok i hi, hvok i hi⟩) (bad_sub hxj (hvok j (by omega)))
  have h2 := key (stat S b).v x hv hx (fun i hi => Or.inl ⟨hvok i hi, hxok i hi⟩) (bad_sub' hxj (hvok j (by omega)))
  rw [A.stat_c]
  rintro I (rfl | rfl)
  exacts [⟨h1, h2⟩, ⟨h1, h2⟩]

theorem table_inf (hs : L.Sums) {I : Index} (hI : I = .XB ∨ I = .DB) {p q : ℤ} (h : p = c ∧ q = b ∨ p = b ∧ q = c) :
    table I S p q = (B64.inf false : B64) := by
  obtain ⟨h1, h2⟩ := A.far hs I hI
  have hpq : p ≠ q := by
    rcases h with ⟨rfl, rfl⟩ | ⟨rfl, rfl⟩
    exacts [A.ne, A.ne.symm]
  rw [table, if_neg hpq]
  rcases h with ⟨rfl, rfl⟩ | ⟨rfl, rfl⟩
  · split <;> assumption
  · split <;> assumption

theorem length_two : (order S).length = 2 := by rcases A.two with e | e <;> rw [e] <;> rfl

theorem pos : 1 ≤ S.length := by
  rcases Nat.eq_zero_or_pos S.length with h | h
  · have e : S = [] := List.eq_nil_of_length_eq_zero h
    have := A.memc
    rw [e] at this
    simp [order] at this
  · exact h

theorem XB (hs : L.Sums) : IsZero (value (F := F64 L) d .XB S) := by
  have hcp : (stat S c).cp = (fin false 0 : B64) := by rw [A.stat_c]; rfl
  have hsum : B64.Fin (Arith.pySum ((order S).map fun c => (stat S c).cp) : F64 L) := by
    rcases A.two with e | e <;> rw [e]
    exacts [(sum_zero_fin hcp A.cp.1 A.cp.2).1, (sum_zero_fin hcp A.cp.1 A.cp.2).2]
  have hlow : low (distances .XB S) = (B64.inf false : B64) := by
    rw [distances]
    rcases A.two with e | e <;> rw [e]
    · exact A.table_inf hs (Or.inl rfl) (Or.inl ⟨rfl, rfl⟩)
    · exact A.table_inf hs (Or.inl rfl) (Or.inr ⟨rfl, rfl⟩)
  have key : ∀ p q : B64, B64.Fin p → q = inf false → IsZero (div p (mul (B64.ofNat S.length) q)) := by
    rintro p q hp rfl
    rw [ofNat_mul_inf A.pos]
    exact div_inf hp
  rw [value, if_neg (by rw [A.length_two]; omega)]
  exact key _ _ hsum hlow

theorem DB (hs : L.Sums) : IsZero (value (F := F64 L) d .DB S) := by
  have hsc : spread (F := F64 L) (stat S c) = (fin false 0 : B64) := by rw [A.stat_c]; rfl
  have hnb : (stat S b).n = (Gen.own S b).length := stat_n S A.memb A.dim
  have hpos := stat_n_pos S A.memb A.dim
  have hlt : (stat S b).n < 2 ^ 53 := by
    rw [hnb]
    have : (Gen.own S b).length ≤ S.length := by
      rw [Gen.own, List.length_map]; exact List.length_filter_le _ _
    exact lt_of_le_of_lt this A.few
  have hsum : B64.Fin (add (spread (F := F64 L) (stat S c)) (spread (F := F64 L) (stat S b))) ∧ B64.Fin (add (spread (F := F64 L) (stat S b)) (spread (F := F64 L) (stat S c))) := by
    have key : ∀ p q : B64, p = fin false 0 → (q = fin false 0 ∨ q = div (stat S b).cp (B64.ofNat (stat S b).n)) →
        B64.Fin (add p q) ∧ B64.Fin (add q p) := by
      rintro p q rfl (rfl | rfl)
      · exact ⟨trivial, trivial⟩
      · exact mean_fin hpos hlt A.cp.1 A.cp.2
    refine key _ _ hsc ?_
    exact (ite_eq_or_eq _ _ _).imp id id
  have hq : IsZero (quotient (F := F64 L) S c b) ∧ IsZero (quotient (F := F64 L) S b c) := by
    have key : ∀ p q r : B64, B64.Fin (add p q) → r = inf false → IsZero (div (add p q) r) := by
      rintro p q r h rfl
      exact div_inf h
    exact ⟨key _ _ _ hsum.1 (A.table_inf hs (Or.inr rfl) (Or.inr ⟨rfl, rfl⟩)), key _ _ _ hsum.2 (A.table_inf hs (Or.inr rfl) (Or.inl ⟨rfl, rfl⟩))⟩
  have hz : IsZero (fin false 0) := ⟨false, rfl⟩
  have hqs : ∀ p q, IsZero (quotients (F := F64 L) S p q) ∨ ¬ ((p = c ∨ p = b) ∧ (q = c ∨ q = b)) := by
    intro p q
    by_cases hpq : (p = c ∨ p = b) ∧ (q = c ∨ q = b)
    · refine Or.inl (IsZero.add ?_ ?_)
      · split
        · rename_i hi
          obtain ⟨rfl | rfl, rfl | rfl⟩ := hpq
          exacts [absurd hi (lt_irrefl _), hq.2, hq.1, absurd hi (lt_irrefl _)]
        · exact hz
      · split
        · rename_i hi
          obtain ⟨rfl | rfl, rfl | rfl⟩ := hpq
          exacts [absurd hi (lt_irrefl _), hq.1, hq.2, absurd hi (lt_irrefl _)]
        · exact hz
    · exact Or.inr hpq
  have hqz : ∀ p q, (p = c ∨ p = b) → (q = c ∨ q = b) → IsZero (quotients (F := F64 L) S p q) := fun p q hp hq =>
    (hqs p q).resolve_right fun h => h ⟨hp, hq⟩
  have hhigh : ∀ q, (q = c ∨ q = b) → IsZero (high (F := F64 L) ((order S).map fun a => quotients S a q)) := by
    intro q hq
    rcases A.two with e | e <;> rw [e]
    · exact IsZero.max2 (hqz c q (Or.inl rfl) hq) (hqz b q (Or.inr rfl) hq)
    · exact IsZero.max2 (hqz b q (Or.inr rfl) hq) (hqz c q (Or.inl rfl) hq)
  have hmem : ∀ q ∈ order S, q = c ∨ q = b := by
    intro q hq
    rcases A.two with e | e <;> rw [e] at hq <;> simp at hq <;> tauto
  rw [value, if_neg (by rw [A.length_two]; omega), A.length_two]
  refine IsZero.div_two ((hs _).isZero ?_)
  intro a ha
  obtain ⟨q, hq, rfl⟩ := List.mem_map.mp ha
  exact hhigh q (hmem q hq)

end Alone

/-- **C86**, how wrong: for two clusters, one of which has a single sample with an infinite feature, XB and DB return zero, whatever the samples of the
other cluster are, as long as its records are finite. -/
theorem C86_zero (hs : L.Sums) (I : Index) (hI : I = .XB ∨ I = .DB) (S : Samples (F64 L)) (c b : ℤ) (x : List (F64 L)) (A : Alone d S c b x) :
    ∃ vs z, (feed (mod (F64 L) I) S (mod (F64 L) I).fresh).val = .ok (vs ++ [z]) ∧ IsZero z := by
  have hne : S ≠ [] := by
    rintro rfl
    have := A.pos
    simp at this
  obtain ⟨vs, h⟩ := run_last (I := I) (by rcases hI with rfl | rfl <;> simp) A.dim hne
  refine ⟨vs, _, h, ?_⟩
  rcases hI with rfl | rfl
  exacts [A.XB hs, A.DB hs]

/-- At most 128 in absolute value -/
def small : B64 → Bool
  | .fin _ m => decide (m ≤ 128 * unit)
  | _ => false

theorem small_spec {a : B64} (h : small a = true) : B64.Fin a ∧ |val a| ≤ Ω / 2 := by
  match a, h with
  | .fin s m, h =>
    refine ⟨trivial, ?_⟩
    have h1 : m ≤ 128 * unit := of_decide_eq_true h
    have h2 : (m : ℝ) ≤ 128 * unit := by exact_mod_cast h1
    have h3 : |val (.fin s m)| = m * lam := by
      have e : val (.fin s m) = (signed s m : ℝ) * lam := rfl
      rw [e, abs_mul, abs_of_pos lam_pos]
      cases s <;> simp [signed]
    have h4 := mul_le_mul_of_nonneg_right h2 lam_pos.le
    have h5 : (2 : ℝ) ^ (8 : ℤ) ≤ Ω := le_Ω (by norm_num)
    rw [mul_assoc, unit_mul] at h4
    rw [h3]
    norm_num at h5
    linarith

/-- The second cluster has one sample, and its second feature is `-inf`. -/
def stray : Samples (F64 .plain) := [([lit 1 10, lit 2 1], 0), ([lit 7 1, B64.inf true], 1), ([lit 3 10, lit 9 1], 0)]

theorem stray_alone : Alone 2 stray 1 0 [lit 7 1, B64.inf true] where
  dim := by
    intro p hp
    simp only [stray, List.mem_cons, List.not_mem_nil, or_false] at hp
    rcases hp with rfl | rfl | rfl <;> rfl
  two := Or.inr (by decide)
  own := by decide +kernel
  infinite := ⟨B64.inf true, List.mem_cons_of_mem _ List.mem_cons_self, true, rfl⟩
  ok := by
    intro a ha
    rcases List.mem_cons.mp ha with rfl | ha
    · exact (by decide +kernel : lit 7 1 ≠ B64.nan)
    · rcases List.mem_cons.mp ha with rfl | ha
      · exact nofun
      · exact absurd ha List.not_mem_nil
  v := by
    have h : List.all (α := B64) (stat stray 0).v isPos = true := by decide +kernel
    exact fun a ha => (isPos_spec (List.all_eq_true.mp h a ha)).1
  cp := small_spec (by decide +kernel : small (stat stray 0).cp = true)
  few := by decide

example (I : Index) (hI : I = .XB ∨ I = .DB) :
    ∃ vs z, (feed (mod (F64 .plain) I) stray (mod (F64 .plain) I).fresh).val = .ok (vs ++ [z]) ∧ IsZero z :=
  C86_zero Lib.plain_sums I hI stray 1 0 _ stray_alone

end Verif.Gen
