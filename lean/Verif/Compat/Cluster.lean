import Verif.Compat.SIL

/-! # `Cluster`, `Clusters` -/

namespace Verif.V0
open Spec Py

variable {d : ℕ}

/-- Add the points one by one. -/
noncomputable def Cluster.addAll : List (Vec × Option ℤ) → Py Cluster Unit
  | [] => pure ()
  | p :: l => do
    Cluster.addPoint p.1 p.2
    Cluster.addAll l

theorem Cluster.addAll_append (l : List (Vec × Option ℤ)) (p : Vec × Option ℤ) {s s' : Cluster} (h : Cluster.addAll l s = .ok () s') :
    Cluster.addAll (l ++ [p]) s = Cluster.addPoint p.1 p.2 s' := by
  induction l generalizing s with
  | nil =>
    simp only [Cluster.addAll, pure_apply, Res.ok.injEq, true_and] at h
    subst h
    simp only [List.nil_append, Cluster.addAll, bind_apply]
    cases Cluster.addPoint p.1 p.2 s with
    | ok a t => rfl
    | err e t => rfl
  | cons q l ih =>
    simp only [Cluster.addAll, List.cons_append, bind_apply] at h ⊢
    cases hq : Cluster.addPoint q.1 q.2 s with
    | err e t => simp [hq] at h
    | ok a t =>
      simp only [hq, Res.bind_ok] at h ⊢
      exact ih h

/-- A radial cluster without a bounding box after the points `l` with the indices `is`. -/
noncomputable def Cluster.ofPoints (d : ℕ) (l : List (Pt d)) (is : List ℤ) : Cluster :=
  ⟨true, false, l.length, if l = [] then none else some (enc (meanOf l)), none, l.map enc, is, if l = [] then 0 else d⟩

theorem meanOf_step (l : List (Pt d)) (x : Pt d) (i : Fin d) :
    ((l.length : ℝ) * meanOf l i + x i) / ((l.length + 1 : ℕ) : ℝ) = meanOf (l ++ [x]) i := by
  rw [meanOf_append_singleton]
  have h1 : ((l.length + 1 : ℕ) : ℝ) ≠ 0 := by positivity
  push_cast at h1 ⊢
  field_simp
  ring

theorem Cluster.addPoint_radial (l : List (Pt d)) (is : List ℤ) (x : Pt d) (i : Option ℤ) :
    Cluster.addPoint (enc x) i (Cluster.ofPoints d l is) = .ok () (Cluster.ofPoints d (l ++ [x]) (is ++ i.toList)) := by
  have hn : ((l.length + 1 : ℕ) : ℝ) ≠ 0 := by positivity
  have hl : l ++ [x] ≠ [] := by simp
  have hfin : ∀ s : Cluster, s = { Cluster.ofPoints d (l ++ [x]) is with len := l.length } →
      ((match i with
        | some i => modify fun s => { s with indices := s.indices ++ [i] }
        | none => pure () : Py Cluster Unit) s).bind (fun _ s' => (modify fun s => { s with len := s.len + 1 } : Py Cluster Unit) s')
      = .ok () (Cluster.ofPoints d (l ++ [x]) (is ++ i.toList)) := by
    rintro s rfl
    cases i <;> simp [Cluster.ofPoints]
  by_cases h : l = []
  · subst h
    have hd : vdiv (enc x) (.fin ((0 + 1 : ℕ) : ℝ)) = enc x := by
      rw [vdiv_enc x (by norm_num)]
      exact enc_congr fun i => by norm_num
    simp only [Cluster.addPoint, bind_apply, get_apply, modify_apply, Res.bind_ok, ite_app, Cluster.ofPoints, List.map_nil, if_true,
      enc_length, pure_apply, scaleAdd, lift_ok, List.length_nil, hd, Bool.false_eq_true, if_false]
    refine hfin _ ?_
    simp [Cluster.ofPoints, meanOf_singleton]
  · have hne : l.map enc ≠ [] := by simpa using h
    have hd : vdiv (enc fun j => (l.length : ℝ) * meanOf l j + x j) (.fin ((l.length + 1 : ℕ) : ℝ)) = enc (meanOf (l ++ [x])) := by
      rw [vdiv_enc _ hn]
      exact enc_congr fun j => meanOf_step l x j
    simp only [Cluster.addPoint, bind_apply, get_apply, modify_apply, Res.bind_ok, ite_app, Cluster.ofPoints, if_neg hne, if_neg h, if_true,
      enc_length, pure_apply, scaleAdd, smul_enc, add_enc, lift_ok, hd, Bool.false_eq_true, if_false]
    refine hfin _ ?_
    simp [Cluster.ofPoints]

theorem Cluster.addAll_radial (l : List (Pt d × Option ℤ)) :
    Cluster.addAll (l.map fun p => (enc p.1, p.2)) (Cluster.init true false)
      = .ok () (Cluster.ofPoints d (l.map Prod.fst) (l.filterMap Prod.snd)) := by
  induction l using List.reverseRecOn with
  | nil => rfl
  | append_singleton l p ih =>
    rw [List.map_append, List.map_cons, List.map_nil, Cluster.addAll_append _ _ ih, Cluster.addPoint_radial]
    congr 2
    · simp
    · cases h : p.2 <;> simp [h]

/-- The Euclidean distance. -/
noncomputable def euclid (x y : Pt d) : ℝ := Real.sqrt (dist2 x y)

theorem Cluster.distances (x : Pt d) (l : List (Pt d)) :
    mapE (fun y => do let e ← Vec.sub (enc x) y; pure (norm 2 e)) (l.map enc) = .ok (l.map fun y => .fin (euclid x y)) := by
  have h : ∀ y : Pt d, (do let e ← Vec.sub (enc x) (enc y); pure (norm 2 e) : Except PyErr XR) = .ok (.fin (euclid x y)) := by
    intro y
    rw [sub_enc, except_bind_ok, norm_enc, except_pure]
    rfl
  induction l with
  | nil => rfl
  | cons y l ih =>
    rw [List.map_cons, mapE, h, except_bind_ok, ih]
    rfl

end Verif.V0
