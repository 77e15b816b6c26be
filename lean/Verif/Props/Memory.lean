import Verif.Gen.Size
import Verif.Gen.Atomic
import Verif.Props.AnyArith

/-!
# C87: memory

An object is meant for streams: what it keeps may depend on the number of clusters and of features, but not on the number of samples.
-/

namespace Verif.Gen
open Py

variable {F : Type} [Arith F] {d : ℕ}

/-- The number of values an object of class `I` holds for `k` clusters and `d` features. -/
def footprint (I : Index) (k d : ℕ) : ℕ :=
  2 * k + match I with
  | .CH | .WB => k + k * d + k + k * d + d + k
  | .XB => k + k * d + k + k * d + d + k * k + if 1 < k then 1 else d
  | .DB => k + k * d + k + k * d + d + k * k + k + if 1 < k then k * k else 0
  | .GD43 | .GD53 => k + k * d + k + k * d + d + k * k
  | .PS => k + k * d + k * k + if 1 < k then d + k else 0
  | .rCIP => k + k * d + k * k + k * (d * d) + d * d
  | .cSIL => k + k * d + k + k * d + k * k + k

omit [Arith F] in
theorem feed_snoc_inv {M : Module F} {l : Samples F} {x : Vec F} {c : ℤ} {o o2 : Obj F} {ws : List F}
    (h : feed M (l ++ [(x, c)]) o = .ok ws o2) :
    ∃ vs o1 v, feed M l o = .ok vs o1 ∧ getCvi M (.d1 x) (.int c) o1 = .ok v o2 := by
  induction l generalizing o ws with
  | nil =>
    obtain ⟨v, t, h1, h⟩ := bind_inv h
    obtain ⟨vs, t', h2, h⟩ := bind_inv h
    cases h2
    cases h
    exact ⟨[], o, v, rfl, h1⟩
  | cons p l ih =>
    obtain ⟨v, t, h1, h⟩ := bind_inv h
    obtain ⟨vs, t', h2, h⟩ := bind_inv h
    cases h
    obtain ⟨us, o1, w, h3, h4⟩ := ih (show feed M (l ++ [(x, c)]) t = _ from h2)
    exact ⟨v :: us, o1, w, by simp [feed, h1, h3], h4⟩

omit [Arith F] in
theorem getCvi_inv {M : Module F} {x : Vec F} {c : ℤ} {o o2 : Obj F} {v : F} {ks : List ℤ} (hm : o.labelMap = mapOf ks)
    (h : getCvi M (.d1 x) (.int c) o = .ok v o2) :
    ∃ s, M.incBody x (ks.idxOf c) o.core = .ok () s ∧ M.evaluate s = .ok () o2.core := by
  obtain ⟨_, t, h1, h⟩ := bind_inv h
  obtain ⟨_, t', h2, h⟩ := bind_inv h
  obtain ⟨a, t'', h3, h⟩ := bind_inv h
  cases h3
  cases h
  simp only [Module.update, Module.paramInc, hm, getInternalLabel_mapOf, onCore] at h1 h2
  split at h1
  · cases h1
  · cases e1 : M.incBody x (ks.idxOf c) o.core with
    | err e s => rw [e1] at h1; cases h1
    | ok u s =>
      rw [e1] at h1
      cases h1
      cases e2 : M.evaluate s with
      | err e s' => rw [e2] at h2; cases h2
      | ok u s' => rw [e2] at h2; cases h2; exact ⟨s, rfl, e2⟩

theorem idle_init (I : Index) : idle I (mod F I).init = 0 := by cases I <;> rfl

/-- The attributes that do not belong to a table. -/
theorem rest {I : Index} (hi : I = .rCIP → InvShape F d) {S : Samples F} (hS : S.Dim d) (hne : S ≠ []) {vs : List F}
    {o : Obj F} (h : feed (mod F I) S (mod F I).fresh = .ok vs o) :
    idle I o.core = 0 ∧ extra I o.core = extraSize I (order S).length d := by
  induction S using List.reverseRecOn generalizing vs o with
  | nil => exact absurd rfl hne
  | append_singleton T p ih =>
    obtain ⟨x, c⟩ := p
    obtain ⟨us, o1, v, h1, h2⟩ := feed_snoc_inv h
    have hT : Samples.Dim d T := fun p hp => hS p (by simp [hp])
    have hx : x.length = d := hS (x, c) (by simp)
    have key : o1.labelMap = mapOf (order T) ∧ Start (mod F I).init (Held I d) T o1.core ∧ idle I o1.core = 0 ∧
        ∀ i, (order (T ++ [(x, c)])).length = 1 → I ≠ .cSIL → extra I ((mod F I).incBody x i o1.core).state = extraSize I 1 d := by
      by_cases hT0 : T = []
      · subst hT0
        cases h1
        refine ⟨rfl, Or.inl ⟨rfl, rfl⟩, idle_init I, fun i _ hI => ?_⟩
        refine (extra_first I x i).trans ?_
        cases I <;> simp [extraSize, hx] at hI ⊢
      · obtain ⟨hm, hR, -⟩ := after hi hT hT0 h1
        obtain ⟨h3, h4⟩ := ih hT hT0 h1
        refine ⟨hm, Or.inr ⟨hT0, hR⟩, h3, fun i hl hI => ?_⟩
        have hl' : (order T).length = 1 := by
          have h1 : 0 < (order T).length := List.length_pos_iff.mpr (order_ne_nil hT0)
          rw [order_append, addKey] at hl
          split at hl
          · exact hl
          · rw [List.length_append] at hl; simp only [List.length_singleton] at hl; omega
        rw [extra_incBody I x i o1.core (by rw [held_nSamples hR]; simpa using hT0), h4, hl']
    obtain ⟨hm, hst, hid, hex⟩ := key
    obtain ⟨s, e1, e2⟩ := getCvi_inv hm h2
    have hid1 : idle I s = 0 := by
      have := idle_incBody I x ((order T).idxOf c) o1.core hid
      rw [e1] at this
      exact this
    have hid2 : idle I o.core = 0 := by
      have := idle_evaluate I s hid1
      rw [e2] at this
      exact this
    refine ⟨hid2, ?_⟩
    have hR : Held I d (T ++ [(x, c)]) s := by
      rcases (refinesE I hi).step T o1.core x c hT hx hst with ⟨s', h3, h4⟩ | ⟨e, s', h3, -⟩
      · rw [e1] at h3; cases h3; exact h4
      · rw [e1] at h3; cases h3
    rw [extra_evaluate hR e2]
    split
    · rfl
    · rename_i hk
      rw [not_or, not_lt] at hk
      have hlen : (order (T ++ [(x, c)])).length = 1 := by
        have := List.length_pos_iff.mpr (order_ne_nil hne)
        omega
      have := hex ((order T).idxOf c) hlen hk.2
      rw [e1] at this
      rw [hlen]
      exact this

omit [Arith F] in
theorem size_map {α : Type} {l : List α} {f : α → List F} {c : ℕ} (h : ∀ a ∈ l, (f a).length = d) :
    (⟨c, l.map f⟩ : Arr2 F).size = l.length * d :=
  size_rect (by simp) fun x hx => by
    obtain ⟨a, ha, rfl⟩ := List.mem_map.mp hx
    exact h a ha

/-- **C87**: after any stream of samples that raised no exception an object holds `footprint I k d` values, where `k` is the number of different labels and
`d` the number of features, and however long the stream was. -/
theorem C87_memory (I : Index) (hi : I = .rCIP → InvShape F d) (S : Samples F) (hS : S.Dim d) (hne : S ≠ []) (vs : List F)
    (o : Obj F) (h : feed (mod F I) S (mod F I).fresh = .ok vs o) : o.size = footprint I (order S).length d := by
  obtain ⟨hm, hR, -⟩ := after hi hS hne h
  obtain ⟨h1, h2⟩ := rest hi hS hne h
  have nv := held_nv hR
  have e1 : o.core.n.items.length = (order S).length := by rw [nv.n]; simp
  have e2 : o.core.v.size = (order S).length * d := by rw [nv.v]; exact size_map fun c hc => stat_v_length S hc hS
  have e3 : o.labelMap.length = (order S).length := by rw [hm]; simp [mapOf]
  have cg : Common6 I → (o.core.CP.elim 0 fun l => l.items.length) = (order S).length ∧ o.core.G.elim 0 Arr2.size = (order S).length * d ∧
      o.core.mu.length = d := by
    intro hI
    have c := held_common hI hR
    refine ⟨?_, ?_, ?_⟩
    · rw [c.cg.cp]; simp
    · rw [c.cg.g]; exact size_map fun c hc => stat_g_length S hc hS
    · rw [c.mu]; exact mu_length S hne hS
  have tb : Tabled I → o.core.D.size = (order S).length * (order S).length := fun hI => by rw [held_table hI hR]; exact size_sqMat _ _
  rw [Obj.size, Core.size, e3, e1, e2]
  cases I with
  | CH | WB =>
    obtain ⟨c1, c2, c3⟩ := cg (by simp [Common6])
    have s : o.core.SEP.length = (order S).length := by rw [RepSep.SEP hR]; simp
    rw [c1, c2, c3, s]
    simp only [idle, footprint] at h1 ⊢
    omega
  | XB =>
    obtain ⟨c1, c2, c3⟩ := cg (by simp [Common6])
    rw [c1, c2, c3, tb (by simp [Tabled])]
    simp only [idle, footprint, extra, extraSize] at h1 h2 ⊢
    omega
  | DB =>
    obtain ⟨c1, c2, c3⟩ := cg (by simp [Common6])
    have s : o.core.Sv.items.length = (order S).length := by rw [RepDB.Sv hR]; simp
    rw [c1, c2, c3, tb (by simp [Tabled]), s]
    simp only [idle, footprint, extra, extraSize] at h1 h2 ⊢
    omega
  | GD43 | GD53 =>
    obtain ⟨c1, c2, c3⟩ := cg (by simp [Common6])
    rw [c1, c2, c3, tb (by simp [Tabled])]
    simp only [idle, footprint] at h1 ⊢
    omega
  | PS =>
    rw [tb (by simp [Tabled])]
    simp only [idle, footprint, extra, extraSize] at h1 h2 ⊢
    omega
  | rCIP =>
    obtain ⟨g, -, hg⟩ := RepG.D hR
    have mid := RepG.toMidG hR
    have sq : ∀ A : Arr2 F, Sq d A → A.size = d * d := fun A hA => size_rect hA.2.1 hA.2.2
    have s : (o.core.sigma.map Arr2.size).sum = (order S).length * (d * d) := by
      rw [mid.sigma, List.map_map]
      show (List.map (fun c => (gauss d S c).sigma.size) (order S)).sum = _
      rw [List.map_congr_left (g := fun _ => d * d) fun c hc => sq _ (gauss_sq S hc hS)]
      simp
    have t : o.core.deltaTerm.size = d * d := by rw [mid.delta]; exact sq _ ridge_sq
    rw [hg, size_sqMat, s, t]
    simp only [idle, footprint] at h1 ⊢
    omega
  | cSIL =>
    have t := RepSil.tables hR
    have c1 : (o.core.CP.elim 0 fun l => l.items.length) = (order S).length := by rw [t.cp]; simp
    have c2 : o.core.G.elim 0 Arr2.size = (order S).length * d := by rw [t.g]; exact size_map fun c hc => sil_g_length S hc hS
    rw [c1, c2, RepSil.Sm hR, size_sqMat]
    simp only [idle, footprint, extra, extraSize] at h1 h2 ⊢
    omega

/-- **C87**, for two streams: as many labels and features, as many values held. -/
theorem C87_same (I : Index) (hI : I ≠ .rCIP) (S T : Samples F) (hS : S.Dim d) (hT : T.Dim d) (hS0 : S ≠ []) (hT0 : T ≠ [])
    (hk : (order S).length = (order T).length) :
    (feed (mod F I) S (mod F I).fresh).state.size = (feed (mod F I) T (mod F I).fresh).state.size := by
  obtain ⟨o, h⟩ := run_value hI hS
  obtain ⟨o', h'⟩ := run_value hI hT
  rw [h, h']
  show o.size = o'.size
  rw [C87_memory I (fun e => absurd e hI) S hS hS0 _ o h, C87_memory I (fun e => absurd e hI) T hT hT0 _ o' h', hk]

/-- Any number of samples in two clusters -/
example (I : Index) (hI : I ≠ .rCIP) (m : ℕ) :
    (feed (mod Cents I) (sample ++ List.replicate m ([⟨17⟩], 7)) (mod Cents I).fresh).state.size =
      (feed (mod Cents I) sample (mod Cents I).fresh).state.size := by
  have hm : Samples.Dim 1 (sample ++ List.replicate m ([⟨17⟩], 7)) := by
    intro p hp
    rcases List.mem_append.mp hp with hp | hp
    · exact sample_dim p hp
    · rw [List.eq_of_mem_replicate hp]; rfl
  refine C87_same (d := 1) I hI _ _ hm sample_dim (by simp [sample]) (by simp [sample]) ?_
  induction m with
  | zero => simp
  | succ m ih =>
    have h7 : (7 : ℤ) ∈ order (sample ++ List.replicate m ([⟨17⟩], 7)) := (mem_order _).mpr ⟨[⟨0⟩], by simp [sample]⟩
    rw [List.replicate_succ', ← List.append_assoc, order_append, addKey, if_pos h7]
    exact ih (fun p hp => hm p (by
      rw [List.replicate_succ', ← List.append_assoc]
      exact List.mem_append_left _ hp))

example (I : Index) : (feed (mod Cents I) sample (mod Cents I).fresh).state.size = footprint I 2 1 := by
  cases I <;> decide +kernel

/-- **C87**: the footprint is at most cubic; without rCIP, quadratic. -/
theorem C87_bound (I : Index) (k d : ℕ) : footprint I k d ≤ 4 * (k + 1) * (k + d + 1) + if I = .rCIP then (k + 1) * d ^ 2 else 0 := by
  have h : 4 * (k + 1) * (k + d + 1) = 4 * (k * k) + 4 * (k * d) + 8 * k + 4 * d + 4 := by ring
  have h' : (k + 1) * d ^ 2 = k * (d * d) + d * d := by ring
  rw [h, h']
  cases I <;> simp only [footprint, reduceCtorEq, if_true, if_false] <;> (try split) <;> omega

end Verif.Gen
