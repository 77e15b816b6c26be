import Verif.Gen.Rounding
import Verif.Gen.RoundingReal

/-! # The error of the compactness in float arithmetic -/

namespace Verif.Gen

/-- The operations of the compactness in the standard model.  `γ` bounds the relative error of `np.inner` of vectors with `d` features;
float64: `γ = d u / (1 - d u)` for every order of summation. -/
structure StandardDot (F : Type) [Arith F] (val : F → ℝ) (fin : F → Prop) (u η Ω : ℝ) (N : ℕ) (γ : ℝ) (d : ℕ) : Prop extends
    Standard F val fin u η Ω N where
  sub : ∀ a b, fin a → fin b → |val a - val b| ≤ Ω → fin (a - b) ∧ |val (a - b) - (val a - val b)| ≤ u * |val a - val b|
  zero : fin 0 ∧ val 0 = 0
  two : fin (Arith.two : F) ∧ val (Arith.two : F) = 2
  ofNat : ∀ n ≤ N, fin (Arith.ofNat n : F) ∧ val (Arith.ofNat n : F) = n
  dot : ∀ a b : List F, a.length = d → b.length = d → (∀ x ∈ a, fin x) → (∀ x ∈ b, fin x) →
    ∑ j ∈ Finset.range d, |val (a.getD j 0) * val (b.getD j 0)| ≤ Ω / 2 → fin (Arith.dot a b) ∧
    |val (Arith.dot a b) - ∑ j ∈ Finset.range d, val (a.getD j 0) * val (b.getD j 0)| ≤
      γ * ∑ j ∈ Finset.range d, |val (a.getD j 0) * val (b.getD j 0)| + 2 * (d * η)

namespace Rounding

variable {F : Type} [Arith F] {val : F → ℝ} {fin : F → Prop} {u η Ω M B γ : ℝ} {N d : ℕ}

/-- One feature of all samples. -/
def column (val : F → ℝ) (l : List (List F)) (j : ℕ) : List ℝ := l.map fun x => val (x.getD j 0)

theorem column_append (l : List (List F)) (x : List F) (j : ℕ) : column val (l ++ [x]) j = column val l j ++ [val (x.getD j 0)] := by
  simp [column]

theorem getD_zip {f : F → F → F} {a b : List F} {j : ℕ} (ha : j < a.length) (hb : j < b.length) :
    (List.zipWith f a b).getD j 0 = f (a.getD j 0) (b.getD j 0) := by
  simp [List.getD_eq_getElem?_getD, ha, hb]

theorem getD_map {f : F → F} {a : List F} {j : ℕ} (ha : j < a.length) : (a.map f).getD j 0 = f (a.getD j 0) := by
  simp [List.getD_eq_getElem?_getD, ha]

theorem fin_of_getD {a : List F} (ha : a.length = d) (h : ∀ j < d, fin (a.getD j 0)) : ∀ x ∈ a, fin x := by
  intro x hx
  obtain ⟨j, hj, rfl⟩ := List.getElem_of_mem hx
  have := h j (ha ▸ hj)
  simpa [List.getD_eq_getElem?_getD, hj] using this

/-- The sum of squared deviations from the mean, exactly. -/
noncomputable def scatter (val : F → ℝ) (l : List (List F)) (d : ℕ) : ℝ :=
  ∑ j ∈ Finset.range d, ((column val l j).map fun y => (y - (column val l j).sum / l.length) ^ 2).sum

/-- What is known about the parameters. -/
structure Params (u η Ω M B γ : ℝ) (N d : ℕ) : Prop where
  u0 : 0 ≤ u
  u1 : u ≤ 1 / 64
  uγ : u ≤ γ
  γN : 106 * γ * N ≤ 1
  η0 : 0 ≤ η
  ηu : η ≤ u * B
  ηγ : N * η ≤ γ * B ^ 2
  M0 : 0 ≤ M
  MB : M + N * (4 * u * M + 3 * η) ≤ B
  d1 : 1 ≤ d
  N1 : 1 ≤ N
  Ω1 : 16 * N * B ≤ Ω
  Ω2 : 64 * N * (d * B ^ 2) ≤ Ω

/-- The tables `G` and `CP` are close to the sums of deviations, and of squared deviations, from the recorded centroid. -/
theorem compactness (h : StandardDot F val fin u η Ω N γ d) (P : Params u η Ω M B γ N d) {l : List (List F)} (hl : l ≠ [])
    (hd : ∀ x ∈ l, x.length = d) (hx : ∀ x ∈ l, ∀ a ∈ x, fin a ∧ |val a| ≤ M) (hN : l.length ≤ N) :
    (∀ j < d, fin ((Stat.of l).g.getD j 0) ∧
      |val ((Stat.of l).g.getD j 0) - ((column val l j).map fun y => y - val ((Stat.of l).v.getD j 0)).sum| ≤
        9 * u * l.length ^ 2 * B) ∧
    fin (Stat.of l).cp ∧
      |val (Stat.of l).cp - ∑ j ∈ Finset.range d, ((column val l j).map fun y => (y - val ((Stat.of l).v.getD j 0)) ^ 2).sum| ≤
        106 * γ * l.length ^ 2 * (d * B ^ 2) := by
  obtain ⟨u0, u1, uγ, γN, η0, ηu, ηγ, M0, MB, d1, N1, Ω1, Ω2⟩ := P
  have hγ0 : 0 ≤ γ := u0.trans uγ
  have hN1 : (1 : ℝ) ≤ N := by exact_mod_cast N1
  have hd1 : (1 : ℝ) ≤ d := by exact_mod_cast d1
  have hMe : 0 ≤ 4 * u * M + 3 * η := by positivity
  have hNMe : 0 ≤ N * (4 * u * M + 3 * η) := by positivity
  have hMB : M ≤ B := by linarith
  have hB : 0 ≤ B := M0.trans hMB
  have hNη : 3 * (N * η) ≤ B := by
    have : 0 ≤ N * (4 * u * M) := by positivity
    have e : N * (4 * u * M + 3 * η) = N * (4 * u * M) + 3 * (N * η) := by ring
    linarith
  have hη1 : η ≤ N * η := by have := mul_le_mul_of_nonneg_right hN1 η0; linarith
  have hNB : B ≤ N * B := by have := mul_le_mul_of_nonneg_right hN1 hB; linarith
  have huN : 106 * u * N ≤ 1 := by
    have := mul_le_mul_of_nonneg_right uγ (by positivity : (0 : ℝ) ≤ N)
    linarith
  have huN0 : 0 ≤ u * N := by positivity
  have hQ : 0 ≤ d * B ^ 2 := by positivity
  have hBB : 0 ≤ B ^ 2 := by positivity
  have hBQ : B ^ 2 ≤ d * B ^ 2 := by have := mul_le_mul_of_nonneg_right hd1 hBB; linarith
  have hvlen : ∀ l : List (List F), l ≠ [] → (∀ x ∈ l, x.length = d) → (Stat.of l).n = l.length ∧ (Stat.of l).v.length = d ∧
      (Stat.of l).g.length = d := fun l h1 h2 => Stat.of_length h1 h2
  -- the recorded centroid
  have hcen : ∀ l : List (List F), l ≠ [] → (∀ x ∈ l, x.length = d) → (∀ x ∈ l, ∀ a ∈ x, fin a ∧ |val a| ≤ M) → l.length ≤ N →
      ∀ j < d, fin ((Stat.of l).v.getD j 0) ∧ |val ((Stat.of l).v.getD j 0)| ≤ B := by
    intro l hl hd hx hN j hj
    obtain ⟨a, h1, h2, h3⟩ := centroid h.toStandard u0 (by linarith) η0 (by linarith) (by linarith) M0 hl hd hx hN hj
    have e : (Stat.of l).v.getD j 0 = a := by simp [List.getD_eq_getElem?_getD, h1]
    rw [e]
    refine ⟨h2, ?_⟩
    have hm : |mean val l j| ≤ M := mean_abs (fun x hx' => by
      have : j < x.length := by rw [hd x hx']; exact hj
      refine (hx x hx' _ ?_).2
      rw [List.getD_eq_getElem?_getD, List.getElem?_eq_getElem this]; exact List.getElem_mem this) hl
    have := abs_le_of_err h3
    have : ((l.length : ℝ) - 1) * (4 * u * M + 3 * η) ≤ N * (4 * u * M + 3 * η) := by
      refine mul_le_mul_of_nonneg_right ?_ hMe
      have : (l.length : ℝ) ≤ N := by exact_mod_cast hN
      linarith
    linarith
  induction l using List.reverseRecOn with
  | nil => exact absurd rfl hl
  | append_singleton l x ih =>
    have hxl : x.length = d := hd x (by simp)
    have hxj : ∀ j < d, fin (x.getD j 0) ∧ |val (x.getD j 0)| ≤ M := fun j hj => by
      have : j < x.length := by rw [hxl]; exact hj
      refine hx x (by simp) _ ?_
      rw [List.getD_eq_getElem?_getD, List.getElem?_eq_getElem this]; exact List.getElem_mem this
    by_cases e : l = []
    · subst e
      have e1 : Stat.of ([] ++ [x]) = Stat.one x := rfl
      rw [e1]
      refine ⟨fun j hj => ?_, h.zero.1, ?_⟩
      · have : (Stat.one x).g.getD j 0 = 0 := by
          rw [Stat.one, getD_map (f := fun _ => 0) (by rw [hxl]; exact hj)]
        rw [this, h.zero.2]
        refine ⟨h.zero.1, ?_⟩
        simp [column, Stat.one]
        positivity
      · have : (Stat.one x).cp = 0 := rfl
        rw [this, h.zero.2]
        simp [column, Stat.one]
        positivity
    · have hdl : ∀ y ∈ l, y.length = d := fun y hy => hd y (by simp [hy])
      have hxall : ∀ y ∈ l, ∀ a ∈ y, fin a ∧ |val a| ≤ M := fun y hy => hx y (by simp [hy])
      have hN' : l.length + 1 ≤ N := by simpa using hN
      have hNl : l.length ≤ N := by omega
      obtain ⟨ihG, ihf, ihC⟩ := ih e hdl hxall hNl
      obtain ⟨n1, n2, n3⟩ := hvlen l e hdl
      have hv := hcen l e hdl hxall hNl
      have hv' := hcen (l ++ [x]) (by simp) hd hx hN
      have hof : Stat.of (l ++ [x]) = (Stat.of l).more x := Stat.of_append _ e
      obtain ⟨m1, m2, m3⟩ := hvlen (l ++ [x]) (by simp) hd
      have hp : 1 ≤ l.length := List.length_pos_iff.mpr e
      obtain ⟨p, hpl⟩ : ∃ p, p = l.length := ⟨_, rfl⟩
      simp only [← hpl] at hN' hNl hp n1 ihG ihC
      have hp0 : (0 : ℝ) ≤ p := Nat.cast_nonneg p
      have hpN : (p : ℝ) + 1 ≤ N := by exact_mod_cast hN'
      have hp1 : (1 : ℝ) ≤ p := by exact_mod_cast hp
      have hlen : ((l ++ [x]).length : ℝ) = p + 1 := by simp [hpl]
      rw [hlen]
      have hup : 18 * u * p ≤ 1 := by
        have : u * p ≤ u * N := mul_le_mul_of_nonneg_left (by linarith) u0
        linarith
      have hγp : 106 * γ * p ≤ 1 := by
        have : γ * p ≤ γ * N := mul_le_mul_of_nonneg_left (by linarith) hγ0
        linarith
      have huk : 4 * u * (p + 1) ≤ 1 := by
        have : u * (p + 1) ≤ u * N := mul_le_mul_of_nonneg_left hpN u0
        linarith
      have hηk : 3 * (p + 1) * η ≤ B := by
        have : (p + 1) * η ≤ N * η := mul_le_mul_of_nonneg_right hpN η0
        linarith
      have hpη : p * η ≤ γ * B ^ 2 := by
        have : p * η ≤ N * η := mul_le_mul_of_nonneg_right (by linarith) η0
        linarith
      have hpB : p * B ≤ N * B := mul_le_mul_of_nonneg_right (by linarith) hB
      obtain ⟨V, hV⟩ : ∃ V : ℕ → ℝ, ∀ j, V j = val ((Stat.of l).v.getD j 0) := ⟨_, fun _ => rfl⟩
      obtain ⟨V', hV'⟩ : ∃ V : ℕ → ℝ, ∀ j, V j = val ((Stat.of (l ++ [x])).v.getD j 0) := ⟨_, fun _ => rfl⟩
      obtain ⟨H, hH⟩ : ∃ H : ℕ → ℝ, ∀ j, H j = ((column val l j).map fun y => y - V j).sum := ⟨_, fun _ => rfl⟩
      have hxB : ∀ j < d, |val (x.getD j 0)| ≤ B := fun j hj => (hxj j hj).2.trans hMB
      have hVB : ∀ j < d, |V j| ≤ B := fun j hj => hV j ▸ (hv j hj).2
      have hVB' : ∀ j < d, |V' j| ≤ B := fun j hj => hV' j ▸ (hv' j hj).2
      have hcol : ∀ j < d, ∀ y ∈ column val l j, |y| ≤ B := by
        intro j hj y hy
        obtain ⟨z, hz, rfl⟩ := List.mem_map.mp hy
        have : j < z.length := by rw [hdl z hz]; exact hj
        refine ((hxall z hz _ ?_).2).trans hMB
        rw [List.getD_eq_getElem?_getD, List.getElem?_eq_getElem this]; exact List.getElem_mem this
      have hclen : ∀ j, (column val l j).length = p := fun j => by simp [column, hpl]
      have hHB : ∀ j < d, |H j| ≤ 2 * p * B := fun j hj => by
        have := (sum_dev_abs (hcol j hj) (hVB j hj)).1
        rwa [hclen, ← hH] at this
      have hvmore : (Stat.of (l ++ [x])).v = blend (p + 1) (Stat.of l).v x := by rw [hof, Stat.more, n1]
      have hD : ∀ j < d, p * |V j - V' j| ≤ 4 * B := by
        intro j hj
        have h1 := (step h.toStandard (k := p + 1) (by omega) hN' u0 (by linarith) η0 (by push_cast; exact huk) le_rfl
          (M := B) (m := V j) (by linarith) (hv j hj).1 (by rw [hV, sub_self, abs_zero]) (hVB j hj) (hxj j hj).1 (hxB j hj)).2
        refine delta_bound u0 η0 hB huk hηk (hVB j hj) (hxB j hj) ?_
        have e1 : V' j = val (Arith.oneMinusInv (p + 1) * (Stat.of l).v.getD j 0 + Arith.invNat (p + 1) * x.getD j 0) := by
          rw [hV', hvmore, blend, getD_zip (by simpa [n2] using hj) (by simpa [hxl] using hj), getD_map (by rw [n2]; exact hj),
            getD_map (by rw [hxl]; exact hj)]
        rw [e1]
        push_cast at h1
        rw [zero_add, add_sub_cancel_right] at h1
        exact h1
      -- the differences
      obtain ⟨dv, hdv⟩ : ∃ dv, dv = List.zipWith (· - ·) (Stat.of l).v (Stat.of (l ++ [x])).v := ⟨_, rfl⟩
      obtain ⟨dx, hdx⟩ : ∃ dx, dx = List.zipWith (· - ·) x (Stat.of (l ++ [x])).v := ⟨_, rfl⟩
      have ldv : dv.length = d := by rw [hdv]; simp [n2, m2]
      have ldx : dx.length = d := by rw [hdx]; simp [hxl, m2]
      obtain ⟨Xh, hXh⟩ : ∃ X : ℕ → ℝ, ∀ j, X j = val (dx.getD j 0) := ⟨_, fun _ => rfl⟩
      obtain ⟨Dh, hDh⟩ : ∃ X : ℕ → ℝ, ∀ j, X j = val (dv.getD j 0) := ⟨_, fun _ => rfl⟩
      have hX : ∀ j < d, |val (x.getD j 0) - V' j| ≤ 2 * B := fun j hj => by
        have := abs_sub (val (x.getD j 0)) (V' j)
        have := hxB j hj
        have := hVB' j hj
        linarith
      have hXe : ∀ j < d, fin (dx.getD j 0) ∧ |Xh j - (val (x.getD j 0) - V' j)| ≤ u * |val (x.getD j 0) - V' j| := by
        intro j hj
        rw [hXh, hdx, getD_zip (by rw [hxl]; exact hj) (by rw [m2]; exact hj), hV']
        exact h.sub _ _ (hxj j hj).1 (hv' j hj).1 (by rw [← hV']; linarith [hX j hj])
      have hDe : ∀ j < d, fin (dv.getD j 0) ∧ |Dh j - (V j - V' j)| ≤ u * |V j - V' j| := by
        intro j hj
        rw [hDh, hdv, getD_zip (by rw [n2]; exact hj) (by rw [m2]; exact hj), hV', hV]
        refine h.sub _ _ (hv j hj).1 (hv' j hj).1 ?_
        rw [← hV', ← hV]
        have := hVB j hj
        have := hVB' j hj
        have := abs_sub (V j) (V' j)
        linarith
      obtain ⟨g, hg⟩ : ∃ g : ℕ → ℝ, ∀ j, g j = val ((Stat.of l).g.getD j 0) := ⟨_, fun _ => rfl⟩
      have hge : ∀ j < d, |g j - H j| ≤ 9 * u * p ^ 2 * B := fun j hj => by
        have := (ihG j hj).2
        rw [hg, hH, hV]; exact this
      have z : ∀ y : ℝ, |y - y| ≤ u * |y| := fun y => by rw [sub_self, abs_zero]; positivity
      have zη : ∀ y : ℝ, |y - y| ≤ u * |y| + η := fun y => (z y).trans (by linarith)
      have on : fin (Arith.ofNat p : F) ∧ val (Arith.ofNat p : F) = p := h.ofNat p hNl
      have hgB : ∀ j < d, |g j| ≤ 5 / 2 * p * B := fun j hj =>
        (g_step hp u0 u1 hB hup η0 ηu (hHB j hj) (hge j hj) (hX j hj) (hXe j hj).2 (hD j hj) (hDe j hj).2 (z _) (zη _) (z _)).1
      have hgmore : (Stat.of (l ++ [x])).g = List.zipWith (· + ·) (List.zipWith (· + ·) (Stat.of l).g dx)
          (dv.map (Arith.ofNat p * ·)) := by
        rw [hdx, hdv, hof]; simp only [Stat.more, n1]
      refine ⟨fun j hj => ?_, ?_⟩
      · -- `G`
        have gs := fun {t1 t2 g' : ℝ} => g_step (t1 := t1) (t2 := t2) (g' := g') hp u0 u1 hB hup η0 ηu (hHB j hj) (hge j hj)
          (hX j hj) (hXe j hj).2 (hD j hj) (hDe j hj).2
        obtain ⟨-, i1, i2, -, -⟩ := gs (z _) (zη _) (z _)
        obtain ⟨f1, r1⟩ := h.add ((Stat.of l).g.getD j 0) (dx.getD j 0) (ihG j hj).1 (hXe j hj).1 (by
          rw [← hg, ← hXh]; linarith)
        obtain ⟨f2, r2⟩ := h.mul (Arith.ofNat p) (dv.getD j 0) on.1 (hDe j hj).1 (by rw [on.2, ← hDh]; linarith)
        rw [← hg, ← hXh] at r1
        rw [on.2, ← hDh] at r2
        obtain ⟨-, -, -, i3, -⟩ := gs r1 r2 (z _)
        obtain ⟨f3, r3⟩ := h.add _ _ f1 f2 (by linarith)
        obtain ⟨-, -, -, -, i4⟩ := gs r1 r2 r3
        have ev : (Stat.of (l ++ [x])).g.getD j 0 = (Stat.of l).g.getD j 0 + dx.getD j 0 + Arith.ofNat p * dv.getD j 0 := by
          rw [hgmore, getD_zip (by simpa [n3, ldx] using hj) (by simpa [ldv] using hj), getD_zip (by rw [n3]; exact hj)
            (by rw [ldx]; exact hj), getD_map (by rw [ldv]; exact hj)]
        rw [ev]
        refine ⟨f3, ?_⟩
        rw [column_append, ← hV', sum_dev _ (V j), hclen, ← hH]
        exact i4
      · -- `CP`
        have ft := fun j (hj : j < d) => feature hp u0 u1 hB (hHB j hj) (hge j hj) (hgB j hj) (hX j hj) (hXe j hj).2 (hD j hj)
          (hDe j hj).2
        have fdx := fin_of_getD ldx fun j hj => (hXe j hj).1
        have fdv := fin_of_getD ldv fun j hj => (hDe j hj).1
        have fg := fin_of_getD n3 fun j hj => (ihG j hj).1
        have hNQ : d * B ^ 2 ≤ N * (d * B ^ 2) := by have := mul_le_mul_of_nonneg_right hN1 hQ; linarith
        have hpQ : p * (d * B ^ 2) ≤ N * (d * B ^ 2) := mul_le_mul_of_nonneg_right (by linarith) hQ
        have huB : u * B ^ 2 ≤ B ^ 2 / 64 := by have := mul_le_mul_of_nonneg_right u1 hBB; linarith
        have aX : ∑ j ∈ Finset.range d, |Xh j * Xh j| ≤ d * (5 * B ^ 2) := sum_le_mul fun j hj => by
          have := ft j hj
          have h2 := abs_le_of_err this.2.1
          rw [abs_of_nonneg (sq_nonneg (val (x.getD j 0) - V' j))] at h2
          linarith [this.1]
        have aD : ∑ j ∈ Finset.range d, |Dh j * Dh j| ≤ d * (17 * B ^ 2) := sum_le_mul fun j hj => by
          have := ft j hj
          have h2 := abs_le_of_err this.2.2.2.1
          rw [abs_of_nonneg (a := p * (V j - V' j) ^ 2) (by positivity), abs_mul, abs_of_nonneg hp0] at h2
          have h3 := mul_le_mul_of_nonneg_right hp1 (abs_nonneg (Dh j * Dh j))
          linarith [this.2.2.1]
        have aG : ∑ j ∈ Finset.range d, |Dh j * g j| ≤ d * (11 * B ^ 2) := sum_le_mul fun j hj => (ft j hj).2.2.2.2.2.1
        obtain ⟨fa, ra⟩ := h.dot dx dx ldx ldx fdx fdx (by simp only [← hXh]; linarith)
        obtain ⟨fb, rb⟩ := h.dot dv dv ldv ldv fdv fdv (by simp only [← hDh]; linarith)
        obtain ⟨fc, rc⟩ := h.dot dv (Stat.of l).g ldv n3 fdv fg (by simp only [← hDh, ← hg]; linarith)
        simp only [← hXh] at ra
        simp only [← hDh] at rb
        simp only [← hDh, ← hg] at rc
        have hsumX : ∑ j ∈ Finset.range d, |Xh j * Xh j| = ∑ j ∈ Finset.range d, Xh j * Xh j :=
          Finset.sum_congr rfl fun j _ => abs_of_nonneg (mul_self_nonneg _)
        have hsumD : ∑ j ∈ Finset.range d, |Dh j * Dh j| = ∑ j ∈ Finset.range d, Dh j * Dh j :=
          Finset.sum_congr rfl fun j _ => abs_of_nonneg (mul_self_nonneg _)
        rw [hsumX] at ra
        rw [hsumD] at rb
        obtain ⟨T, hT⟩ : ∃ T, T = ∑ j ∈ Finset.range d, ((column val l j).map fun y => (y - V j) ^ 2).sum := ⟨_, rfl⟩
        have hT0 : 0 ≤ T := by
          rw [hT]; exact Finset.sum_nonneg fun j hj =>
            (sum_dev_abs (hcol j (Finset.mem_range.mp hj)) (hVB j (Finset.mem_range.mp hj))).2.1
        have hTle : T ≤ 4 * p * (d * B ^ 2) := by
          have : T ≤ d * (4 * p * B ^ 2) := by
            rw [hT]; refine sum_le_mul fun j hj => ?_
            have := (sum_dev_abs (hcol j hj) (hVB j hj)).2.2
            rwa [hclen] at this
          linarith
        simp only [← hV] at ihC
        rw [← hT] at ihC
        have cs := fun {w z s1 s2 CP' : ℝ} => cp_step (CP := val (Stat.of l).cp) (T := T) (γ := γ) (u := u) (η := η) (θ := d * η)
          (Q := d * B ^ 2) (p := p) (sX := ∑ j ∈ Finset.range d, (val (x.getD j 0) - V' j) ^ 2)
          (sXh := ∑ j ∈ Finset.range d, Xh j * Xh j) (a := val (Arith.dot dx dx))
          (sD := ∑ j ∈ Finset.range d, p * (V j - V' j) ^ 2) (sDh := ∑ j ∈ Finset.range d, p * (Dh j * Dh j))
          (b := val (Arith.dot dv dv)) (w := w)
          (sG := ∑ j ∈ Finset.range d, (V j - V' j) * H j) (sGh := ∑ j ∈ Finset.range d, Dh j * g j)
          (aG := ∑ j ∈ Finset.range d, |Dh j * g j|) (c := val (Arith.dot dv (Stat.of l).g)) (z := z) (s1 := s1) (s2 := s2) (CP' := CP')
          hp u0 uγ hγp hQ (by positivity) (by
            have : γ * B ^ 2 ≤ γ * (d * B ^ 2) := mul_le_mul_of_nonneg_left hBQ hγ0
            linarith) (by
            have : d * (p * η) ≤ d * (γ * B ^ 2) := mul_le_mul_of_nonneg_left hpη (by positivity)
            linarith) hT0 hTle ihC
          (Finset.sum_nonneg fun _ _ => sq_nonneg _)
          ((sum_le_mul fun j hj => (ft j hj).1).trans (le_of_eq (by ring)))
          (by rw [← Finset.sum_sub_distrib]; exact (sum_abs_le fun j hj => (ft j hj).2.1).trans (le_of_eq (by ring)))
          ra (Finset.sum_nonneg fun _ _ => by positivity)
          ((sum_le_mul fun j hj => (ft j hj).2.2.1).trans (le_of_eq (by ring)))
          (by rw [← Finset.sum_sub_distrib]; exact (sum_abs_le fun j hj => (ft j hj).2.2.2.1).trans (le_of_eq (by ring)))
          (by
            rw [← Finset.mul_sum, ← mul_sub, abs_mul, abs_of_nonneg hp0]
            refine (mul_le_mul_of_nonneg_left rb hp0).trans (le_of_eq (by ring)))
        have hG8 : |∑ j ∈ Finset.range d, (V j - V' j) * H j| ≤ 8 * (d * B ^ 2) :=
          (sum_abs_le fun j hj => (ft j hj).2.2.2.2.1).trans (le_of_eq (by ring))
        have hGh : |∑ j ∈ Finset.range d, Dh j * g j - ∑ j ∈ Finset.range d, (V j - V' j) * H j| ≤
            (11 + 36 * p) * (u * (d * B ^ 2)) := by
          rw [← Finset.sum_sub_distrib]
          exact (sum_abs_le fun j hj => (ft j hj).2.2.2.2.2.2).trans (le_of_eq (by ring))
        have aG' : ∑ j ∈ Finset.range d, |Dh j * g j| ≤ 11 * (d * B ^ 2) := aG.trans (le_of_eq (by ring))
        obtain ⟨i1, i2, i3, -, -, -⟩ := cs (zη _) hG8 hGh aG' rc (zη _) (z _) (z _) (z _)
        obtain ⟨f1, r1⟩ := h.mul (Arith.ofNat p) _ on.1 fb (by rw [on.2]; linarith)
        obtain ⟨f2, r2⟩ := h.mul Arith.two _ h.two.1 fc (by rw [h.two.2]; linarith)
        obtain ⟨f3, r3⟩ := h.add _ _ ihf fa (by linarith)
        rw [on.2] at r1
        rw [h.two.2] at r2
        obtain ⟨-, -, -, i4, -, -⟩ := cs r1 hG8 hGh aG' rc r2 r3 (z _) (z _)
        obtain ⟨f4, r4⟩ := h.add _ _ f3 f1 (by linarith)
        obtain ⟨-, -, -, -, i5, -⟩ := cs r1 hG8 hGh aG' rc r2 r3 r4 (z _)
        obtain ⟨f5, r5⟩ := h.add _ _ f4 f2 (by linarith)
        obtain ⟨-, -, -, -, -, i6⟩ := cs r1 hG8 hGh aG' rc r2 r3 r4 r5
        have ev : (Stat.of (l ++ [x])).cp = (Stat.of l).cp + Arith.dot dx dx + Arith.ofNat p * Arith.dot dv dv +
            Arith.two * Arith.dot dv (Stat.of l).g := by
          rw [hdx, hdv, hof]; simp only [Stat.more, n1]
        rw [ev]
        refine ⟨f5, ?_⟩
        have eT : ∑ j ∈ Finset.range d, ((column val (l ++ [x]) j).map fun y =>
            (y - val ((Stat.of (l ++ [x])).v.getD j 0)) ^ 2).sum =
            T + ∑ j ∈ Finset.range d, (val (x.getD j 0) - V' j) ^ 2 + ∑ j ∈ Finset.range d, p * (V j - V' j) ^ 2 +
              2 * ∑ j ∈ Finset.range d, (V j - V' j) * H j := by
          rw [hT, Finset.mul_sum, ← Finset.sum_add_distrib, ← Finset.sum_add_distrib, ← Finset.sum_add_distrib]
          refine Finset.sum_congr rfl fun j _ => ?_
          rw [column_append, ← hV', sum_dev_sq _ (V j), hclen, ← hH]
        rw [eT]
        exact i6

/-- Numbers far from the ends of the range of floats, and not too many samples. -/
structure Moderate (u η Ω M γ : ℝ) (N d : ℕ) : Prop where
  u0 : 0 ≤ u
  uγ : u ≤ γ
  γN : 128 * γ * N ≤ 1
  η0 : 0 ≤ η
  ηu : η ≤ u * M
  ηγ : N * η ≤ γ * M ^ 2
  ηM : 100 * (N * η) ≤ M
  M0 : 0 ≤ M
  Ω1 : 17 * N * M ≤ Ω
  Ω2 : 73 * N * (d * M ^ 2) ≤ Ω

/-- The table `CP` is close to the sum of squared deviations from the mean. -/
theorem cp_scatter (h : StandardDot F val fin u η Ω N γ d) (P : Moderate u η Ω M γ N d) {l : List (List F)} (hl : l ≠ [])
    (hd : ∀ x ∈ l, x.length = d) (hd1 : 1 ≤ d) (hx : ∀ x ∈ l, ∀ a ∈ x, fin a ∧ |val a| ≤ M) (hN : l.length ≤ N) :
    fin (Stat.of l).cp ∧ |val (Stat.of l).cp - scatter val l d| ≤ 128 * γ * l.length ^ 2 * (d * M ^ 2) := by
  obtain ⟨u0, uγ, γN, η0, ηu, ηγ, ηM, M0, Ω1, Ω2⟩ := P
  have hp : 1 ≤ l.length := List.length_pos_iff.mpr hl
  have hN1 : (1 : ℝ) ≤ N := by exact_mod_cast hp.trans hN
  have hlN : (l.length : ℝ) ≤ N := by exact_mod_cast hN
  have hp1 : (1 : ℝ) ≤ l.length := by exact_mod_cast hp
  have hγ0 : 0 ≤ γ := u0.trans uγ
  have hγ1 : 128 * γ ≤ 1 := by have := mul_le_mul_of_nonneg_left hN1 hγ0; linarith
  have huN : 128 * (u * N) ≤ 1 := by have := mul_le_mul_of_nonneg_right uγ (by positivity : (0 : ℝ) ≤ N); linarith
  obtain ⟨B, hB⟩ : ∃ B, B = M + N * (4 * u * M + 3 * η) := ⟨_, rfl⟩
  have hMB : M ≤ B := by
    have : 0 ≤ N * (4 * u * M + 3 * η) := by positivity
    linarith
  have hBM : B ≤ 17 / 16 * M := by
    have := mul_le_mul_of_nonneg_right huN M0
    have e : N * (4 * u * M + 3 * η) = 4 * (u * N * M) + 3 * (N * η) := by ring
    linarith
  have hMM : M ^ 2 ≤ B ^ 2 := pow_le_pow_left₀ M0 hMB 2
  have hBB : B ^ 2 ≤ 289 / 256 * M ^ 2 := by
    have := pow_le_pow_left₀ (M0.trans hMB) hBM 2
    linarith
  have hdB : d * B ^ 2 ≤ 289 / 256 * (d * M ^ 2) := by
    have := mul_le_mul_of_nonneg_left hBB (by positivity : (0 : ℝ) ≤ d)
    linarith
  have hdM : 0 ≤ d * M ^ 2 := by positivity
  have P : Params u η Ω M B γ N d := ⟨u0, by linarith, uγ, by
      have : 0 ≤ γ * N := by positivity
      linarith, η0, ηu.trans (mul_le_mul_of_nonneg_left hMB u0), ηγ.trans (mul_le_mul_of_nonneg_left hMM hγ0), M0, hB.ge, hd1,
      hp.trans hN, by
      have := mul_le_mul_of_nonneg_left hBM (by positivity : (0 : ℝ) ≤ N)
      linarith, by
      have := mul_le_mul_of_nonneg_left hdB (by positivity : (0 : ℝ) ≤ N)
      have : 0 ≤ N * (d * M ^ 2) := by positivity
      linarith⟩
  obtain ⟨-, hf, hC⟩ := compactness h P hl hd hx hN
  refine ⟨hf, ?_⟩
  have hcl : ∀ j, (column val l j).length = l.length := fun j => by simp [column]
  have hcn : ∀ j, column val l j ≠ [] := fun j => by simpa [column] using hl
  have e1 : ∑ j ∈ Finset.range d, ((column val l j).map fun y => (y - val ((Stat.of l).v.getD j 0)) ^ 2).sum =
      scatter val l d + ∑ j ∈ Finset.range d, l.length * (val ((Stat.of l).v.getD j 0) - (column val l j).sum / l.length) ^ 2 := by
    rw [scatter, ← Finset.sum_add_distrib]
    refine Finset.sum_congr rfl fun j _ => ?_
    rw [sum_dev_mean _ _ (hcn j), hcl]
  have hsmall : ∑ j ∈ Finset.range d, l.length * (val ((Stat.of l).v.getD j 0) - (column val l j).sum / l.length) ^ 2 ≤
      d * (l.length * (7 * (l.length * (u * M))) ^ 2) := by
    refine sum_le_mul fun j hj => mul_le_mul_of_nonneg_left ?_ (by positivity)
    have huB : 4 * u * N ≤ 1 := by
      have : 0 ≤ u * N := by positivity
      linarith
    have hΩ : 4 * M + (6 * N + 3) * η ≤ Ω := by
      have h1 : η ≤ N * η := by have := mul_le_mul_of_nonneg_right hN1 η0; linarith
      have h2 : M ≤ N * M := by have := mul_le_mul_of_nonneg_right hN1 M0; linarith
      linarith
    obtain ⟨a, h1, -, h3⟩ := centroid h.toStandard u0 (by linarith) η0 huB hΩ M0 hl hd hx hN hj
    have e : (Stat.of l).v.getD j 0 = a := by simp [List.getD_eq_getElem?_getD, h1]
    rw [e]
    have hle : ((l.length : ℝ) - 1) * (4 * u * M + 3 * η) ≤ 7 * (l.length * (u * M)) := by
      have h4 : 4 * u * M + 3 * η ≤ 7 * (u * M) := by linarith
      have := mul_le_mul (sub_le_self (l.length : ℝ) zero_le_one) h4 (by positivity) (by positivity)
      linarith
    have h4 : |val a - (column val l j).sum / l.length| ≤ 7 * (l.length * (u * M)) := h3.trans hle
    have := pow_le_pow_left₀ (abs_nonneg _) h4 2
    rwa [sq_abs] at this
  have hsmall0 : 0 ≤ ∑ j ∈ Finset.range d, l.length * (val ((Stat.of l).v.getD j 0) - (column val l j).sum / l.length) ^ 2 :=
    Finset.sum_nonneg fun _ _ => by positivity
  have hfin : d * (l.length * (7 * (l.length * (u * M))) ^ 2) ≤ (γ * (l.length ^ 2 * (d * M ^ 2))) := by
    have h1 : 128 * (u * l.length) ≤ 1 := by
      have := mul_le_mul_of_nonneg_left hlN u0
      linarith
    have h2 : u * l.length * u ≤ 1 / 128 * γ := mul_le_mul (by linarith) uγ u0 (by norm_num)
    have hq : 0 ≤ l.length ^ 2 * (d * M ^ 2) := by positivity
    have := mul_le_mul_of_nonneg_right h2 hq
    have hγq : 0 ≤ γ * (l.length ^ 2 * (d * M ^ 2)) := by positivity
    have e : d * (l.length * (7 * (l.length * (u * M))) ^ 2) = 49 * (u * l.length * u * (l.length ^ 2 * (d * M ^ 2))) := by ring
    rw [e]
    linarith
  have hmain : 106 * γ * l.length ^ 2 * (d * B ^ 2) ≤ 120 * (γ * (l.length ^ 2 * (d * M ^ 2))) := by
    have := mul_le_mul_of_nonneg_left hdB (by positivity : 0 ≤ γ * (l.length : ℝ) ^ 2)
    have hγq : 0 ≤ γ * (l.length ^ 2 * (d * M ^ 2)) := by positivity
    linarith
  rw [e1] at hC
  have hγq : 0 ≤ γ * (l.length ^ 2 * (d * M ^ 2)) := by positivity
  have e2 : 128 * γ * l.length ^ 2 * (d * M ^ 2) = 128 * (γ * (l.length ^ 2 * (d * M ^ 2))) := by ring
  rw [e2]
  rw [abs_le] at hC ⊢
  constructor <;> linarith [hC.1, hC.2]

end Rounding
end Verif.Gen
