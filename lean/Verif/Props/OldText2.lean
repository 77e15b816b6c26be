import Verif.Old.SIL
import Verif.Old.Cluster
import Verif.Props.OldText
import Verif.Props.CompatSIL

/-!
# C100: the text of the older interface's `iSIL` and `Cluster`

`SILo.run b c` runs the text of `iSIL.update(x, c)` where `x` is the caller's array number `b`.  The first call on a new object always raises, so the
theorems are about sessions in which the caller catches every exception and carries on with the same object: `session` lists what each call returned
or raised.
-/

namespace Verif.Old
open V0 Spec CSIL

variable {σ τ ι α β : Type} {d : ℕ}

/-- Make the calls one after the other with the same object, catching every exception: what each call returned or raised, and the object. -/
def session (call : ι → Py σ α) : List ι → σ → List (Except PyErr α) × σ
  | [], s => ([], s)
  | i :: l, s => ((call i s).val :: (session call l (call i s).state).1, (session call l (call i s).state).2)

theorem session_append (call : ι → Py σ α) (l : List ι) (i : ι) (s : σ) :
    session call (l ++ [i]) s = ((session call l s).1 ++ [(call i (session call l s).2).val], (call i (session call l s).2).state) := by
  induction l generalizing s with
  | nil => rfl
  | cons j l ih => simp only [List.cons_append, session, ih]

theorem session_sim {call : ι → Py σ PV} {upd : ι → Py τ β} {Inv : σ → τ → Prop} {w : β → Option XR}
    (h : ∀ i o s, Inv o s → SimS (fun v o' y s' => PV.val v = w y ∧ Inv o' s') Inv (call i o) (upd i s))
    (l : List ι) : ∀ o s, Inv o s →
      (session call l o).1.map (fun r => r.map PV.val) = (session upd l s).1.map (fun r => r.map w) ∧
      Inv (session call l o).2 (session upd l s).2 := by
  induction l with
  | nil => exact fun o s ho => ⟨rfl, ho⟩
  | cons i l ih =>
    intro o s ho
    have h1 := h i o s ho
    simp only [session, List.map_cons]
    cases hr : call i o with
    | err e o' =>
      cases hu : upd i s with
      | err e' s' =>
        rw [hr, hu] at h1
        obtain ⟨rfl, h2⟩ := h1
        obtain ⟨h3, h4⟩ := ih o' s' h2
        exact ⟨by rw [List.cons_eq_cons]; exact ⟨rfl, h3⟩, h4⟩
      | ok y s' => rw [hr, hu] at h1; exact h1.elim
    | ok v o' =>
      cases hu : upd i s with
      | err e' s' => rw [hr, hu] at h1; exact h1.elim
      | ok y s' =>
        rw [hr, hu] at h1
        obtain ⟨h0, h2⟩ := h1
        obtain ⟨h3, h4⟩ := ih o' s' h2
        exact ⟨by rw [List.cons_eq_cons]; exact ⟨congrArg Except.ok h0, h3⟩, h4⟩

/-! ## `iSIL` -/

/-- The session in the text: construct an object, then make the calls. -/
noncomputable def silText (calls : List (ℕ × ℤ)) (o : SILo) : List (Except PyErr PV) × SILo :=
  session (fun p => SILo.run p.1 p.2) calls (SILo.runInit o).state

/-- The session in the model. -/
noncomputable def silModel (calls : List (ℕ × ℤ)) (heap : ℕ → Vec) : List (Except PyErr XR) × V0.SIL :=
  session (fun p => V0.SIL.update p.1 p.2) calls (V0.SIL.init heap)

theorem silModel_state (calls : List (ℕ × ℤ)) (heap : ℕ → Vec) : (silModel calls heap).2 = SIL.afterAll calls (V0.SIL.init heap) := by
  unfold silModel
  generalize V0.SIL.init heap = s
  induction calls generalizing s with
  | nil => rfl
  | cons p l ih => exact ih _

/-- **C100**, `iSIL`, one call: from any object whose tables have the sizes the class keeps, whatever the caller's arrays hold and however long they
are, the text returns the number the model returns and leaves the object the model leaves, or raises the same exception. -/
theorem C100_SIL_update (b : ℕ) (c : ℤ) (o : SILo) (h : o.Good) :
    (SILo.run b c o).val.map PV.val = (V0.SIL.update b c o.abs).val.map some ∧
      (∀ v, (SILo.run b c o).val = .ok v → (SILo.run b c o).state.abs = (V0.SIL.update b c o.abs).state) := by
  have h1 := SILo.run_sim b c o h
  cases hr : SILo.run b c o with
  | err e o' =>
    cases hu : V0.SIL.update b c o.abs with
    | err e' s' =>
      rw [hr, hu] at h1
      obtain ⟨rfl, -⟩ := h1
      exact ⟨rfl, fun v hv => by cases hv⟩
    | ok y s' => rw [hr, hu] at h1; exact h1.elim
  | ok v o' =>
    cases hu : V0.SIL.update b c o.abs with
    | err e' s' => rw [hr, hu] at h1; exact h1.elim
    | ok y s' =>
      rw [hr, hu] at h1
      obtain ⟨⟨⟨n, rfl, rfl⟩, rfl, -⟩, -⟩ := h1
      exact ⟨rfl, fun _ _ => rfl⟩

/-- **C100**, `iSIL`, sessions: with arrays of one length, holding any numbers, infinities or NaN, and any cluster numbers — negative, repeated, out
of order — every call of the text returns what the corresponding call of the model returns or raises what it raises, and at the end the object and
the caller's arrays are those of the model. -/
theorem C100_SIL (calls : List (ℕ × ℤ)) (o : SILo) (hd : ∀ a, (o.heap a).length = d) :
    (silText calls o).1.map (fun r => r.map PV.val) = (silModel calls o.heap).1.map (fun r => r.map some) ∧
      (silText calls o).2.abs = (silModel calls o.heap).2 := by
  obtain ⟨o', h1, h2, h3⟩ := SILo.init_eq o
  have hu : SILo.Uni d o' := by
    have e1 : o'.heap = o.heap := congrArg V0.SIL.heap h2
    have e2 : o'.centers = [] := congrArg V0.SIL.centers h2
    exact ⟨fun a => by rw [e1]; exact hd a, fun v hv => by rw [e2] at hv; cases hv⟩
  have h := session_sim (call := fun p : ℕ × ℤ => SILo.run p.1 p.2) (upd := fun p => V0.SIL.update p.1 p.2) (w := some)
    (Inv := fun o s => o.abs = s ∧ o.Good ∧ SILo.Uni d o) (fun p o s ho => by
      obtain ⟨rfl, ho⟩ := ho
      exact simS_mono (by rintro v o1 y s ⟨⟨⟨n, rfl, rfl⟩, rfl, hg⟩, hk⟩; exact ⟨rfl, rfl, hg, hk d ho.2⟩)
        (by rintro o1 s hk; exact hk d ho.2) (SILo.run_sim p.1 p.2 o ho.1)) calls o' _ ⟨rfl, h3, hu⟩
  unfold silText silModel
  rw [h1, ← h2]
  exact ⟨h.1, h.2.1⟩

/-- **C100**, the value: with cluster numbers introduced in order and no array presented again after it was the first of its cluster, the last call
of the session returns the value described by `silOutput` if there are then at least two clusters, and raises ValueError otherwise. -/
theorem C100_SIL_value (pts : ℕ → Pt d) {T : List (ℕ × ℤ)} {b : ℕ} {c : ℤ} (hT : InOrder (samples pts (T ++ [(b, c)])))
    (hF : FirstsOnce (T ++ [(b, c)])) (o : SILo) (ho : o.heap = fun a => enc (pts a)) :
    ((silText (T ++ [(b, c)]) o).1.map fun r => r.map PV.val).getLast? =
      some (if 2 ≤ numClusters (samples pts (T ++ [(b, c)])) then .ok (some (silOutput (samples pts (T ++ [(b, c)])) c)) else .error .valueError) := by
  rw [(C100_SIL (d := d) (T ++ [(b, c)]) o (fun a => by rw [ho]; simp [enc])).1, silModel, session_append]
  simp only [List.map_append, List.map_cons, List.map_nil, List.getLast?_append, List.getLast?_singleton, Option.some_or]
  have hs := silModel_state T o.heap
  unfold silModel at hs
  rw [hs, ho]
  obtain ⟨s, h⟩ := C93 pts hT hF
  rw [h]
  split_ifs <;> rfl

/-- **C100**, the arrays: the text writes to the first array of every cluster — it ends up holding the sum of the samples of that cluster with the
first counted twice — and to no other. -/
theorem C100_SIL_arrays (pts : ℕ → Pt d) {T : List (ℕ × ℤ)} (hT : InOrder (samples pts T)) (hF : FirstsOnce T) (o : SILo)
    (ho : o.heap = fun a => enc (pts a)) :
    (∀ c ∈ T.map Prod.snd, (silText T o).2.heap (firstArray T c) = enc fun i => pts (firstArray T c) i + vecSum (samples pts T) c i)
    ∧ ∀ b, (∀ c ∈ T.map Prod.snd, firstArray T c ≠ b) → (silText T o).2.heap b = enc (pts b) := by
  have h := congrArg V0.SIL.heap (C100_SIL (d := d) T o (fun a => by rw [ho]; simp [enc])).2
  rw [silModel_state, ho] at h
  have h' : (silText T o).2.heap = (SIL.afterAll T (V0.SIL.init fun a => enc (pts a))).heap := h
  rw [h']
  exact C93_arrays pts hT hF

/-- **C100**, the first call: on a new object it raises ValueError whatever the array holds, after doubling the caller's array. -/
theorem C100_SIL_first (o : SILo) (x : Pt d) (b : ℕ) (hx : o.heap b = enc x) (hd : ∀ a, (o.heap a).length = d) :
    (silText [(b, 0)] o).1 = [.error .valueError] ∧ (silText [(b, 0)] o).2.heap b = enc fun i => 2 * x i := by
  obtain ⟨h1, h2⟩ := C100_SIL (d := d) [(b, 0)] o hd
  obtain ⟨s, h3, h4⟩ := C47_false o.heap b x hx
  simp only [silModel, session, h3, Res.val, Res.state, List.map_cons, List.map_nil] at h1 h2
  constructor
  · generalize (silText [(b, 0)] o).1 = l at h1
    clear h2
    match l, h1 with
    | [.error e], h1 =>
      simp only [List.map_cons, List.map_nil, Except.map, List.cons.injEq, and_true, Except.error.injEq] at h1
      rw [h1]
    | [.ok v], h1 => simp only [List.map_cons, List.map_nil, Except.map, List.cons.injEq, and_true, reduceCtorEq] at h1
    | [], h1 => simp only [List.map_nil, reduceCtorEq] at h1
    | a :: a' :: l, h1 => simp only [List.map_cons, List.cons.injEq, reduceCtorEq, and_false] at h1
  · generalize (silText [(b, 0)] o).2 = t at h2
    exact (congrFun (congrArg V0.SIL.heap h2) b).trans h4

/-- A session that meets the hypotheses: three arrays holding 0, 2 and 0, in the clusters 0, 1 and 0.  The last call returns 0, while the silhouette of
the three samples is 1. -/
example (o : SILo) (ho : o.heap = fun a => enc (silPts a)) :
    ((silText silCalls o).1.map fun r => r.map PV.val).getLast? = some (.ok (some (.fin 0))) ∧ Spec.cSIL (samples silPts silCalls) = .fin 1 := by
  refine ⟨?_, silCalls_silhouette⟩
  have hk : 2 ≤ numClusters (samples silPts silCalls) := by rw [numClusters, silCalls_labels]; decide
  have := C100_SIL_value silPts (T := [(0, 0), (1, 1)]) silCalls_ok.1 silCalls_ok.2 o ho
  rw [show ([(0, 0), (1, 1)] ++ [(2, 0)] : List (ℕ × ℤ)) = silCalls from rfl, if_pos hk, silCalls_value] at this
  exact this

/-! ## `Cluster` -/

namespace Clu

/-- **C100**, `Cluster.add_point`: a session of calls in the text, on an object constructed by the text, gives the outcomes and the object the model
gives — whatever the points (of any lengths, finite or not), the indices, and the flags `radial` and `box`. -/
theorem C100_add_point (radial box : Bool) (calls : List (Vec × Option ℤ)) (o : V0.Cluster) :
    (session (fun p => runAdd p.1 p.2) calls (runInit radial box o).state).1.map (fun r => r.map fun _ => ()) =
        (session (fun p => V0.Cluster.addPoint p.1 p.2) calls (V0.Cluster.init radial box)).1 ∧
      (session (fun p => runAdd p.1 p.2) calls (runInit radial box o).state).2 =
        (session (fun p => V0.Cluster.addPoint p.1 p.2) calls (V0.Cluster.init radial box)).2 := by
  rw [init_eq]
  have hg : Good (V0.Cluster.init radial box) := fun b hb => by cases hb
  change (session _ calls (V0.Cluster.init radial box)).1.map _ = _ ∧ (session _ calls (V0.Cluster.init radial box)).2 = _
  revert hg
  generalize V0.Cluster.init radial box = s
  induction calls generalizing s with
  | nil => exact fun _ => ⟨rfl, rfl⟩
  | cons p l ih =>
    intro hg
    have h1 := add_good p.1 p.2 s hg
    have h2 : (runAdd p.1 p.2 s).state = (V0.Cluster.addPoint p.1 p.2 s).state := by
      rw [add_eq _ _ _ hg]; cases V0.Cluster.addPoint p.1 p.2 s <;> rfl
    have h3 : (runAdd p.1 p.2 s).val.map (fun _ => ()) = (V0.Cluster.addPoint p.1 p.2 s).val := by
      rw [add_eq _ _ _ hg]; cases V0.Cluster.addPoint p.1 p.2 s <;> rfl
    obtain ⟨h4, h5⟩ := ih _ h1
    simp only [session, List.map_cons, h2, h3, h4, h5]
    exact ⟨trivial, trivial⟩

/-- **C100**, the distances: the text of `min_distance`, `avg_distance` and `center_distance` returns the numbers the model returns, or raises the same
exception. -/
theorem C100_distances (x : Vec) (o : V0.Cluster) :
    (callMethod host Cluster.min_distance [.vec x] [] o).val.map PV.val = (o.minDistance x).map some ∧
      (callMethod host Cluster.avg_distance [.vec x] [] o).val.map PV.val = (o.avgDistance x).map some ∧
      (callMethod host Cluster.center_distance [.vec x] [] o).val.map PV.val = (o.centerDistance x).map some := by
  refine ⟨?_, ?_, ?_⟩
  · rw [min_eq]; cases o.minDistance x <;> rfl
  · rw [avg_eq]; cases o.avgDistance x <;> rfl
  · rw [center_eq]; cases o.centerDistance x <;> rfl

/-- **C100**, `within_bounding_box`, once there is a bounding box. -/
theorem C100_within (x b : Vec) (o : V0.Cluster) (hb : o.box = some b) :
    (callMethod host Cluster.within_bounding_box [.vec x] [] o).val = (V0.Cluster.withinBox b x).map PV.bool := by
  rw [within_eq x b o hb]; cases V0.Cluster.withinBox b x <;> rfl

theorem session_addAll (l : List (Vec × Option ℤ)) (s s' : V0.Cluster) (h : V0.Cluster.addAll l s = .ok () s') :
    session (fun p : Vec × Option ℤ => V0.Cluster.addPoint p.1 p.2) l s = (l.map fun _ => .ok (), s') := by
  induction l generalizing s with
  | nil =>
    cases h
    rfl
  | cons p l ih =>
    simp only [V0.Cluster.addAll, Py.bind_apply] at h
    cases hp : V0.Cluster.addPoint p.1 p.2 s with
    | err e t => rw [hp] at h; cases h
    | ok u t =>
      rw [hp] at h
      simp only [session, hp, Res.state, ih t h, List.map_cons]
      rfl

/-- **C100**, what the text of `Cluster` computes: after `Cluster(radial=True, box=False)` and any points of equal length, with or without indices,
no call has raised; the object holds their number, their mean and their indices; and the three distances are the least and the average distance to
the points, and the distance to their mean. -/
theorem C100_radial (l : List (Pt d × Option ℤ)) (o : V0.Cluster) :
    let r := session (fun p => runAdd p.1 p.2) (l.map fun p => (enc p.1, p.2)) (runInit true false o).state
    (∀ q ∈ r.1, ∃ v, q = .ok v) ∧ r.2.len = l.length ∧ r.2.indices = l.filterMap Prod.snd ∧
      (l ≠ [] → r.2.center = some (enc (meanOf (l.map Prod.fst))) ∧ ∀ x : Pt d,
        (∃ m, IsLeast {r | ∃ p ∈ l, r = euclid x p.1} m ∧
          (callMethod host Cluster.min_distance [.vec (enc x)] [] r.2).val.map PV.val = .ok (some (.fin m))) ∧
        (callMethod host Cluster.avg_distance [.vec (enc x)] [] r.2).val.map PV.val =
          .ok (some (.fin ((l.map fun p => euclid x p.1).sum / l.length))) ∧
        (callMethod host Cluster.center_distance [.vec (enc x)] [] r.2).val.map PV.val =
          .ok (some (.fin (euclid (meanOf (l.map Prod.fst)) x)))) := by
  intro r
  obtain ⟨h1, h2⟩ := C100_add_point true false (l.map fun p => (enc p.1, p.2)) o
  obtain ⟨s, h3, h4, h5, h6, h7, h8⟩ := C50_partial l
  rw [session_addAll _ _ _ h3] at h1 h2
  have e1 : r.1.map (fun q => q.map fun _ => ()) = (l.map fun p => (enc p.1, p.2)).map fun _ => .ok () := h1
  have e2 : r.2 = s := h2
  refine ⟨fun q hq => ?_, e2 ▸ h4, e2 ▸ h6, fun hl => ⟨e2 ▸ h7 hl, fun x => ?_⟩⟩
  · have := List.mem_map_of_mem (f := fun q : Except PyErr PV => q.map fun _ => ()) hq
    rw [e1] at this
    obtain ⟨-, -, h⟩ := List.mem_map.1 this
    cases q with
    | error e => cases h
    | ok v => exact ⟨v, rfl⟩
  · obtain ⟨⟨m, hm, h9⟩, h10, h11⟩ := (h8 x).2 hl
    obtain ⟨g1, g2, g3⟩ := C100_distances (enc x) r.2
    rw [e2] at g1 g2 g3 ⊢
    rw [g1, g2, g3, h9, h10, h11]
    exact ⟨⟨m, hm, rfl⟩, rfl, rfl⟩

/-- Two points, 0 and 2, the first with the index 7: the average distance from 2 is 1. -/
example (o : V0.Cluster) : (callMethod host Cluster.avg_distance [.vec (enc (fun _ => 2 : Pt 1))] []
    (session (fun p => runAdd p.1 p.2) ([((fun _ => 0 : Pt 1), some 7), (fun _ => 2, Option.none)].map fun p => (enc p.1, p.2))
      (runInit true false o).state).2).val.map PV.val = .ok (some (.fin 1)) := by
  refine (((C100_radial (d := 1) [((fun _ => 0 : Pt 1), some 7), (fun _ => 2, Option.none)] o).2.2.2 (by simp)).2 _).2.1.trans ?_
  have h4 : √(4 : ℝ) = 2 := by rw [show (4 : ℝ) = 2 ^ 2 by norm_num]; exact Real.sqrt_sq (by norm_num)
  norm_num [euclid, dist2, h4]

end Clu
end Verif.Old
