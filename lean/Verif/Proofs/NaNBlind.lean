import Verif.Proofs.NaNExact

/-!
# Incremental GD53 does not look at the first sample of a cluster

`_D` and `_CP` of a new cluster are computed without the sample; the sample goes to `_v` and `_mu` only.
-/

namespace Verif
open Py Spec

variable {d : ℕ}

namespace GD53

/-- As `Rep`, with arbitrary `_mu` and arbitrary rows `w` in `_v`. -/
structure BRep (w : ℤ → Vec) (S : Stream d) (s : Core) : Prop where
  dim : s.dim = d
  k : s.nClusters = (keys S).length
  n : s.n = ⟨false, (keys S).map (size S)⟩
  v : s.v = ⟨d, (keys S).map w⟩
  cp : RepCP false (keys S) S s
  g : RepG d (keys S) s
  nSamples : s.nSamples = S.length
  mu : s.mu.length = d
  D : s.D = sqMat (keys S) (entry S)

/-- The same before the branch. -/
structure BMid (w : ℤ → Vec) (S : Stream d) (s : Core) : Prop where
  dim : s.dim = d
  k : s.nClusters = (keys S).length
  n : s.n = ⟨false, (keys S).map (size S)⟩
  v : s.v = ⟨d, (keys S).map w⟩
  cp : RepCP false (keys S) S s
  g : RepG d (keys S) s
  mu : s.mu.length = d
  D : keys S ≠ [] → s.D = sqMat (keys S) (entry S)

theorem bstart {w : ℤ → Vec} {S : Stream d} {s : Core} {y : Vec} (hy : y.length = d) (h : Start Core.init (BRep w) S s) :
    s.nSamples = S.length ∧ ∃ s', setupOrMu setup y s = .ok () s' ∧ BMid w S s' := by
  rcases h with ⟨rfl, rfl⟩ | ⟨hne, h⟩
  · refine ⟨rfl, _, rfl, ?_, rfl, rfl, ?_, rfl, ?_, hy, fun h => absurd rfl h⟩ <;> simp [hy] <;> rfl
  · have hl : s.nSamples ≠ 0 := by rw [h.nSamples]; simpa using hne
    obtain ⟨mu, e, hmu⟩ : ∃ mu, runningMean (s.nSamples + 1) s.mu y = .ok mu ∧ mu.length = d := by
      rw [runningMean, Vec.add, Vec.bin, if_pos (by simp [Vec.smul, h.mu, hy])]
      exact ⟨_, rfl, by simp [Vec.smul, h.mu, hy]⟩
    refine ⟨h.nSamples, { s with mu := mu }, ?_, h.dim, h.k, h.n, h.v, h.cp, h.g, hmu, fun _ => h.D⟩
    rw [setupOrMu]
    apply get_bind
    rw [if_neg hl]
    exact lift_bind e rfl

/-- The rows of `_v` afterwards. -/
noncomputable def nextRow (w : ℤ → Vec) (S : Stream d) (x : Pt d) (y : Vec) (c : ℤ) : ℤ → Vec := fun a =>
  if a = c then if c ∈ keys S then enc (centroid (S ++ [(x, c)]) c) else y else w a

theorem bdist {S : Stream d} {s : Core} {w : ℤ → Vec} {a c : ℤ} (h : BMid w S s) (x : Pt d) (ha : a ∈ keys S) (hac : a ≠ c) :
    dist s (.fin (scatter (S ++ [(x, c)]) c)) (size (S ++ [(x, c)]) c) ((keys S).idxOf a) =
      .ok (.fin (pooled (S ++ [(x, c)]) c a)) :=
  dist_rep (s := { s with v := ⟨d, (keys S).map fun c => enc (centroid S c)⟩ }) (b := false) ⟨h.dim, h.k, h.n, rfl⟩ h.cp x ha hac

theorem bbranch {w : ℤ → Vec} {S : Stream d} {s : Core} {x : Pt d} {y : Vec} {c : ℤ} (h : BMid w S s) (hy : y.length = d)
    (hold : c ∈ keys S → y = enc x ∧ w c = enc (centroid S c)) :
    ∃ s', (if ((keys S).idxOf c : ℤ) > (s.nClusters : ℤ) - 1 then incNew y ((keys S).idxOf c)
      else incOld y ((keys S).idxOf c)) s = .ok () s' ∧ BMid (nextRow w S x y c) (S ++ [(x, c)]) s' := by
  have hks := keysOf_keys S
  by_cases hc : c ∈ keys S
  · obtain ⟨rfl, hwc⟩ := hold hc
    have hkey : keys (S ++ [(x, c)]) = keys S := by rw [keys_append, addKey_old hc]
    refine ⟨{ s with
      n := ⟨false, (keys S).map (size (S ++ [(x, c)]))⟩
      v := ⟨d, (keys S).map (nextRow w S x (enc x) c)⟩
      CP := some ⟨false, (keys S).map fun a => XR.fin (scatter (S ++ [(x, c)]) a)⟩
      G := some ⟨d, (keys S).map fun _ => enc (fun _ : Fin d => (0 : ℝ))⟩
      D := sqMat (keys S) (entry (S ++ [(x, c)])) }, ?_, ?_⟩
    rotate_left
    · refine ⟨h.dim, ?_, ?_, ?_, ?_, ?_, h.mu, fun _ => ?_⟩ <;> simp only [RepCP, RepG, hkey]
      exact h.k
    rw [if_neg (by rw [isNew_iff h.k]; simpa using hc), incOld]
    have hst : oldStats (enc x) ((keys S).idxOf c) s = .ok ⟨size (S ++ [(x, c)]) c, enc (centroid (S ++ [(x, c)]) c),
        .fin (scatter (S ++ [(x, c)]) c), enc fun _ : Fin d => 0⟩ := by
      have := oldStats_rep (s := { s with v := ⟨d, (keys S).map fun c => enc (centroid S c)⟩ }) (b := false) x hks hc
        ⟨h.dim, h.k, h.n, rfl⟩ h.cp h.g
      rw [← this]
      simp only [oldStats]
      rw [h.v, row_rep hc, row_rep hc, hwc]
    refine get_bind (lift_bind hst ?_)
    refine lift_bind (a := (keys S).map fun a => if a = c then 0 else .fin (pooled (S ++ [(x, c)]) c a)) ?_ ?_
    · rw [h.k]
      exact columnOld_keys (keys_nodup S) fun a ha hac => bdist h x ha hac
    · refine bind_ok_of (setN_rep hks.nodup hc h.n (f' := size (S ++ [(x, c)])) rfl fun a _ ha => size_append_ne S x ha) ?_
      refine bind_ok_of (setV_rep hks.nodup hc h.v (f' := nextRow w S x (enc x) c) (by simp [nextRow, hc]) (by simp)
        fun a _ ha => by simp [nextRow, ha]) ?_
      refine bind_ok_of (setCP_rep hks.nodup hc h.cp (f' := fun a => XR.fin (scatter (S ++ [(x, c)]) a))
        rfl fun a _ ha => by rw [scatter_append_ne S x ha]) ?_
      refine bind_ok_of (setG_rep hks.nodup hc h.g (f' := fun _ => enc (fun _ : Fin d => 0)) rfl (by simp)
        fun _ _ _ => rfl) ?_
      refine setD_rep (keys_nodup S) hc (h.D (List.ne_nil_of_mem hc)) ?_ ?_ ?_
      · intro a ha
        by_cases e : a = c
        · subst e; simp [entry]
        · simp [e, entry, Ne.symm e]
      · intro a ha
        by_cases e : a = c
        · subst e; simp [entry]
        · simp [e, entry, pooled_comm _ a c]
      · intro a _ b _ ha hb
        simp [entry, pooled_append_ne S x ha hb]
  · have hcl : c ∉ labels S := fun h => hc (mem_keys.mpr h)
    have hkey : keys (S ++ [(x, c)]) = keys S ++ [c] := by rw [keys_append, addKey_new hc]
    refine ⟨{ s with
      nClusters := s.nClusters + 1
      n := ⟨false, (keys S ++ [c]).map (size (S ++ [(x, c)]))⟩
      v := ⟨d, (keys S ++ [c]).map (nextRow w S x y c)⟩
      CP := some ⟨false, (keys S ++ [c]).map fun a => XR.fin (scatter (S ++ [(x, c)]) a)⟩
      G := some ⟨d, (keys S ++ [c]).map fun _ => enc (fun _ : Fin d => (0 : ℝ))⟩
      D := sqMat (keys S ++ [c]) (entry (S ++ [(x, c)])) }, ?_, ?_⟩
    rotate_left
    · refine ⟨h.dim, ?_, ?_, ?_, ?_, ?_, h.mu, fun _ => ?_⟩ <;> simp only [RepCP, RepG, hkey]
      simp [h.k]
    rw [if_pos (by rw [isNew_iff h.k]; exact hc), incNew]
    refine get_bind (lift_bind (a := sqMat (keys S ++ [c]) (entry (S ++ [(x, c)]))) ?_ ?_)
    · rw [h.k, List.idxOf_eq_length hc]
      refine distNew_sqMat (keys_nodup S) hc h.D ?_ ?_ ?_ ?_
      · intro a ha
        have e : a ≠ c := fun e => hc (e ▸ ha)
        have := bdist h x ha e
        rw [scatter_append_new S x hcl, size_append_new S x hcl] at this
        rw [XR.zero_def, this, entry, if_neg (Ne.symm e)]
      · intro a ha
        have e : a ≠ c := fun e => hc (e ▸ ha)
        rw [entry, entry, if_neg e, if_neg (Ne.symm e), pooled_comm]
      · simp [entry]
      · intro a ha b hb
        have ea : a ≠ c := fun e => hc (e ▸ ha)
        have eb : b ≠ c := fun e => hc (e ▸ hb)
        simp [entry, pooled_append_ne S x ea eb]
    · refine modify_bind ?_
      refine bind_ok_of (appendN_rep hc h.n (f' := size (S ++ [(x, c)])) (size_append_new S x hcl).symm
        fun a _ ha => size_append_ne S x ha) ?_
      refine bind_ok_of (appendCP_rep hc h.cp (f' := fun a => XR.fin (scatter (S ++ [(x, c)]) a))
        (by rw [scatter_append_new S x hcl]; rfl) fun a _ ha => by rw [scatter_append_ne S x ha]) ?_
      refine bind_ok_of (vstackV_rep hc h.v (f' := nextRow w S x y c) (by simp [nextRow, hc]) hy
        fun a _ ha => by simp [nextRow, ha]) ?_
      refine bind_ok_of (vstackG_rep hc h.g (f' := fun _ => enc (fun _ : Fin d => 0)) (by rw [h.dim, zeros_eq_enc])
        (by simp [h.dim, zeros_eq_enc]) fun _ _ _ => rfl) ?_
      rfl

theorem bstep {w : ℤ → Vec} {S : Stream d} {s : Core} {x : Pt d} {y : Vec} {c : ℤ} (h : Start Core.init (BRep w) S s)
    (hy : y.length = d) (hold : c ∈ keys S → y = enc x ∧ w c = enc (centroid S c)) :
    ∃ s', incBody y ((keys S).idxOf c) s = .ok () s' ∧ BRep (nextRow w S x y c) (S ++ [(x, c)]) s' := by
  obtain ⟨hn, s1, h1, hm⟩ := bstart hy h
  obtain ⟨s2, h2, hm2⟩ := bbranch hm hy hold
  have hne : keys (S ++ [(x, c)]) ≠ [] := List.ne_nil_of_mem (a := c) (mem_keys.2 (by simp [labels]))
  refine ⟨_, get_bind (bind_ok_of h1 (get_bind (bind_ok_of h2 rfl))),
    hm2.dim, hm2.k, hm2.n, hm2.v, hm2.cp, hm2.g, ?_, hm2.mu, hm2.D hne⟩
  simp [hn]

/-- One call. -/
theorem bcall {w : ℤ → Vec} {S : Stream d} {o : Obj} {x : Pt d} {y : Vec} {c : ℤ} (hm : o.labelMap = mapOf (keys S))
    (h : Start Core.init (BRep w) S o.core) (hy : y.length = d)
    (hold : c ∈ keys S → y = enc x ∧ w c = enc (centroid S c)) :
    ∃ o', getCvi GD53mod (.d1 y) (.int c) o = .ok (Spec.GD53 (S ++ [(x, c)])) o' ∧ o'.labelMap = mapOf (keys (S ++ [(x, c)])) ∧
      BRep (nextRow w S x y c) (S ++ [(x, c)]) o'.core := by
  obtain ⟨s1, h1, hb⟩ := bstep h hy hold
  obtain ⟨u, g, h2⟩ := evaluate_tables (keysOf_keys (S ++ [(x, c)])) hb.k hb.n hb.cp (Upper.congr (keys_nodup _) (hb.D ▸ upper_sqMat _ _)
      fun a _ b _ hab => by simp [entry, hab])
  have e1 : GD53mod.incBody y ((keys S).idxOf c) o.core = .ok () s1 := h1
  have e2 : GD53mod.evaluate s1 = .ok () _ := h2
  have ha : GD53mod.abstract = false := rfl
  have e : GD53mod.update (.d1 y) (.int c) o = .ok () ⟨mapOf (keys (S ++ [(x, c)])), s1⟩ := by
    simp [Module.update, Module.paramInc, ha, hm, getInternalLabel_mapOf, onCore, e1, Res.mapState, keys_append]
  refine ⟨⟨mapOf (keys (S ++ [(x, c)])), { s1 with intra := u, inter := g, criterion := Spec.GD53 (S ++ [(x, c)]) }⟩, ?_, rfl, ?_⟩
  · simp only [getCvi, bind_apply, e, Res.bind_ok, onCore, e2, Res.mapState]
    rfl
  · exact ⟨hb.dim, hb.k, hb.n, hb.v, hb.cp, hb.g, hb.nSamples, hb.mu, hb.D⟩

/-- A whole stream in which a sample with a gap is the only one of its cluster. -/
theorem bfeed {S : Stream d} {T : GappyStream d} (hS : Completes S T) {P : Stream d} {A : GappyStream d} (hP : Completes P A)
    (hone : ∀ p ∈ A ++ T, HasGap p.1 → ((A ++ T).map Prod.snd).count p.2 = 1) {w : ℤ → Vec} {o : Obj}
    (hm : o.labelMap = mapOf (keys P)) (h : Start Core.init (BRep w) P o.core)
    (hw : ∀ a ∈ keys P, (∀ p ∈ A, p.2 = a → ¬ HasGap p.1) → w a = enc (centroid P a)) :
    ∃ o', feed GD53mod (encSG T) o = .ok (S.inits.tail.map fun Q => Spec.GD53 (P ++ Q)) o' := by
  induction hS generalizing P A w o with
  | nil => exact ⟨o, rfl⟩
  | @cons p q S T hpq hST ih =>
    obtain ⟨x, c⟩ := p
    obtain ⟨y, c'⟩ := q
    obtain ⟨hf, rfl⟩ := hpq
    simp only at hf
    have hPA : Completes (P ++ [(x, c)]) (A ++ [(y, c)]) := List.rel_append hP (.cons ⟨hf, rfl⟩ .nil)
    have hold : c ∈ keys P → encG y = enc x ∧ w c = enc (centroid P c) := by
      intro hc
      have hcA : c ∈ A.map Prod.snd := by
        rw [← completes_snd hP]
        simpa [labels] using mem_keys.1 hc
      have hcount : 2 ≤ ((A ++ (y, c) :: T).map Prod.snd).count c := by
        have := List.count_pos_iff.2 hcA
        simp only [List.map_append, List.map_cons, List.count_append, List.count_cons_self]
        omega
      refine ⟨?_, hw c hc fun p hp hpc hg => ?_⟩
      · have hy : ¬ HasGap y := fun hg => by
          have := hone (y, c) (by simp) hg
          simp only at this
          omega
        rw [enc, encG]
        congr 1
        funext i
        cases hi : y i with
        | none => exact absurd ⟨i, hi⟩ hy
        | some r => rw [hf i r hi]; rfl
      · have := hone p (by simp [hp]) hg
        rw [hpc] at this
        simp only at this
        omega
    obtain ⟨o1, h1, h2, h3⟩ := bcall (x := x) (y := encG y) hm h (by simp [encG]) hold
    obtain ⟨o2, h4⟩ := ih hPA (by simpa using hone) (o := o1) h2 (.inr ⟨by simp, h3⟩) (by
      intro a ha hna
      rw [nextRow]
      split
      · rename_i e
        subst e
        split
        · rfl
        · rename_i hc
          have hcl : a ∉ labels P := fun h => hc (mem_keys.mpr h)
          rw [centroid_append_new P x hcl]
          have hy := hna (y, a) (by simp) rfl
          rw [enc, encG]
          congr 1
          funext i
          cases hi : y i with
          | none => exact absurd ⟨i, hi⟩ hy
          | some r => rw [hf i r hi]; rfl
      · rename_i e
        rw [centroid_append_ne P x e]
        refine hw a ?_ fun p hp => hna p (by simp [hp])
        rw [mem_keys] at ha ⊢
        simpa [labels, e] using ha)
    refine ⟨o2, ?_⟩
    have := congrArg (List.map Spec.GD53) (inits_tail_snoc P (x, c) S)
    simp only [List.map_map, List.map_cons, Function.comp_def] at this
    rw [this]
    simp only [encSG, List.map_cons, feed, bind_apply] at h4 ⊢
    rw [h1, Res.bind_ok, h4]
    rfl

end GD53

end Verif
