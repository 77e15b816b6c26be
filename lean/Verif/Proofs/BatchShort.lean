import Verif.Proofs.Run

/-!
# Batch mode with more labels than rows

A surplus label that is one of `0 .. k-1` makes the loop index a row that does not exist.
-/

namespace Verif
open Spec Py

variable {d : ℕ}

theorem forEach_err {σ ι : Type} {b : ι → Py σ Unit} {i : ι} {l : List ι} {s s' : σ} {e : PyErr}
    (h : b i s = .err e s') : Py.forEach (i :: l) b s = .err e s' := by
  rw [Py.forEach, bind_apply, h]; rfl

theorem bind_err_of {σ α β : Type} {x : Py σ α} {f : α → Py σ β} {s s' : σ} {e : PyErr} (h : x s = .err e s') :
    (x >>= f) s = .err e s' := by rw [bind_apply, h]; rfl

theorem bind_fails {σ α β : Type} {x : Py σ α} {f : α → Py σ β} {s : σ} {e : PyErr}
    (h : ∃ s', x s = .err e s') : ∃ s', (x >>= f) s = .err e s' := by
  obtain ⟨s', h⟩ := h; exact ⟨s', bind_err_of h⟩

theorem forEach_range_fails {σ : Type} {b : ℕ → Py σ Unit} {k : ℕ} {s : σ} {e : PyErr} (hk : 0 < k)
    (h : ∃ s', b 0 s = .err e s') : ∃ s', Py.forEach (List.range k) b s = .err e s' := by
  obtain ⟨k, rfl⟩ : ∃ m, k = m + 1 := ⟨k - 1, by omega⟩
  obtain ⟨s', h⟩ := h
  rw [List.range_succ_eq_map]
  exact ⟨s', forEach_err h⟩

/-- Label `i` at a position beyond the last row makes iteration `i` of every batch loop raise IndexError. -/
theorem take_fails {a : Arr2} {l : List ℤ} {t i : ℕ} (hl : l[t]? = some (i : ℤ)) (ht : a.rows.length ≤ t) :
    a.take (subsetIndices l i) = .error .indexError := by
  have hm : t ∈ subsetIndices l i := by
    rw [subsetIndices, List.mem_filter, List.mem_range]
    refine ⟨?_, by simp [hl]⟩
    by_contra h
    rw [List.getElem?_eq_none (by omega)] at hl
    cases hl
  have : ∀ idx : List ℕ, t ∈ idx → mapE (fun i => a.row i) idx = .error .indexError := by
    intro idx
    induction idx with
    | nil => simp
    | cons i idx ih =>
      intro hmem
      rw [mapE]
      by_cases hi : a.rows.length ≤ i
      · rw [show a.row i = .error .indexError from by rw [Arr2.row, List.getElem?_eq_none hi]]; rfl
      · have hne : t ≠ i := by omega
        rw [show a.row i = .ok a.rows[i] from by rw [Arr2.row, List.getElem?_eq_getElem (by omega)]]
        rw [except_bind_ok, ih ((List.mem_cons.1 hmem).resolve_left hne)]; rfl
  rw [Arr2.take, this _ hm]; rfl

theorem modify_fails {σ β : Type} {g : σ → σ} {f : Unit → Py σ β} {s : σ} {e : PyErr}
    (h : ∃ s', f () (g s) = .err e s') : ∃ s', (Py.modify g >>= f) s = .err e s' := h

theorem lift_fails {σ α β : Type} {x : Except PyErr α} {f : α → Py σ β} {s : σ} {e : PyErr} (h : x = .error e) :
    ∃ s', (Py.lift x >>= f) s = .err e s' := ⟨s, by rw [h]; rfl⟩

theorem paramBatch_fails (I : Index) {a : Arr2} {l : List ℤ} (hd : DimOk I a.cols) {t : ℕ} (hl : l[t]? = some 0)
    (ht : a.rows.length ≤ t) (s : Core) : ∃ s', I.mod.paramBatch a l s = .err .indexError s' := by
  have hk : 0 < uniqueSize l := by
    rw [uniqueSize, List.length_pos_iff]
    intro h
    rw [List.dedup_eq_nil] at h
    rw [h] at hl; cases hl
  have htake := take_fails (a := a) (i := 0) hl ht
  cases I
  · exact modify_fails (modify_fails (forEach_range_fails hk (lift_fails htake)))
  · exact modify_fails (modify_fails (forEach_range_fails hk (lift_fails htake)))
  · exact modify_fails (modify_fails (bind_fails (forEach_range_fails hk (lift_fails htake))))
  · exact modify_fails (modify_fails (bind_fails (forEach_range_fails hk (lift_fails htake))))
  · exact modify_fails (modify_fails (bind_fails (forEach_range_fails hk (lift_fails htake))))
  · exact modify_fails (modify_fails (bind_fails (forEach_range_fails hk (lift_fails htake))))
  · exact modify_fails (modify_fails (bind_fails (forEach_range_fails hk (lift_fails htake))))
  · have hdt : ∃ dt, RCIP.deltaTerm a.cols = .ok dt := by
      rw [RCIP.deltaTerm, if_neg (Nat.pos_iff_ne_zero.1 (hd rfl))]; exact ⟨_, rfl⟩
    obtain ⟨dt, hdt⟩ := hdt
    show ∃ s', RCIP.paramBatch a l s = _
    rw [RCIP.paramBatch, bind_apply, Base.setupBatch, modify_apply, Res.bind_ok, hdt, bind_apply, lift_ok, Res.bind_ok]
    exact modify_fails (bind_fails (forEach_range_fails hk (lift_fails htake)))
  · exact modify_fails (modify_fails (bind_fails (forEach_range_fails hk (lift_fails htake))))

/-- A loop all of whose iterations either go on or raise `e`, and one of which raises. -/
theorem forEach_range_err {σ : Type} {b : ℕ → Py σ Unit} {k : ℕ} {e : PyErr} (st : ℕ → σ)
    (h : ∀ i, i < k → b i (st i) = .ok () (st (i + 1)) ∨ ∃ s', b i (st i) = .err e s')
    (hx : ∃ i, i < k ∧ ∃ s', b i (st i) = .err e s') : ∃ s', Py.forEach (List.range k) b (st 0) = .err e s' := by
  have key : ∀ k, (∀ i, i < k → b i (st i) = .ok () (st (i + 1)) ∨ ∃ s', b i (st i) = .err e s') →
      Py.forEach (List.range k) b (st 0) = .ok () (st k) ∧ (∀ i, i < k → ¬ ∃ s', b i (st i) = .err e s') ∨
        ∃ s', Py.forEach (List.range k) b (st 0) = .err e s' := by
    intro k
    induction k with
    | zero => exact fun _ => .inl ⟨rfl, fun i hi => absurd hi (by omega)⟩
    | succ k ih =>
      intro h
      rw [List.range_succ]
      rcases ih fun i hi => h i (by omega) with ⟨h1, h2⟩ | ⟨s', h1⟩
      · rw [forEach_append _ _ _ _ _ h1]
        rcases h k (by omega) with h3 | ⟨s', h3⟩
        · refine .inl ⟨?_, ?_⟩
          · rw [forEach, bind_apply, h3]; rfl
          · intro i hi
            by_cases e : i = k
            · subst e; rintro ⟨s', h4⟩; rw [h3] at h4; cases h4
            · exact h2 i (by omega)
        · exact .inr ⟨s', forEach_err h3⟩
      · refine .inr ⟨s', ?_⟩
        have : ∀ (l m : List ℕ) (s : σ), forEach l b s = .err e s' → forEach (l ++ m) b s = .err e s' := by
          intro l m
          induction l with
          | nil => intro s h; cases h
          | cons a l ih =>
            intro s h
            rw [List.cons_append, forEach, bind_apply]
            rw [forEach, bind_apply] at h
            cases hb : b a s with
            | ok x s1 => rw [hb] at h; exact ih s1 h
            | err e1 s1 => rw [hb] at h; exact h
        exact this _ _ _ h1
  rcases key k h with ⟨_, h2⟩ | h1
  · obtain ⟨i, hi, hs⟩ := hx
    exact absurd hs (h2 i hi)
  · exact h1

theorem subsetIndices_surplus {l L : List ℤ} {i : ℕ} (h : (i : ℤ) ∉ L) : subsetIndices (l ++ L) i = subsetIndices l i := by
  induction L using List.reverseRecOn with
  | nil => rw [List.append_nil]
  | append_singleton L c ih =>
    rw [List.mem_append, not_or, List.mem_singleton] at h
    rw [← List.append_assoc, subsetIndices_append, ih h.1, if_neg (fun e => h.2 e.symm), List.append_nil]

theorem take_surplus (S : Stream d) {L : List ℤ} {i : ℕ} (h : (i : ℤ) ∈ L) :
    (encRows (S.map Prod.fst)).take (subsetIndices (S.map Prod.snd ++ L) i) = .error .indexError := by
  obtain ⟨t, ht, hi⟩ := List.mem_iff_getElem.1 h
  refine take_fails (t := S.length + t) ?_ (by simp)
  rw [List.getElem?_append_right (by simp)]
  simp [ht, hi]

/-- The loop of a class whose iteration is the one proved for the rows that are there. -/
theorem loop_short {S : Stream d} {L : List ℤ} {k : ℕ} {step : List ℤ → ℕ → Py Core Unit} {s : Core} (st : ℕ → Core → Core)
    (h0 : s = st 0 s)
    (h1 : ∀ i, i < k → step (S.map Prod.snd) i (st i s) = .ok () (st (i + 1) s) ∨
      ∃ s', step (S.map Prod.snd) i (st i s) = .err .indexError s')
    (h2 : ∀ i : ℕ, (i : ℤ) ∉ L → step (S.map Prod.snd ++ L) i = step (S.map Prod.snd) i)
    (h3 : ∀ (i : ℕ) (s : Core), (i : ℤ) ∈ L → ∃ s', step (S.map Prod.snd ++ L) i s = .err .indexError s')
    (hx : ∃ c ∈ L, 0 ≤ c ∧ c < (k : ℤ)) :
    ∃ s', forEach (List.range k) (step (S.map Prod.snd ++ L)) s = .err .indexError s' := by
  rw [h0]
  apply forEach_range_err (fun i => st i s)
  · intro i hi
    by_cases h : (i : ℤ) ∈ L
    · exact .inr (h3 i _ h)
    · rw [h2 i h]; exact h1 i hi
  · obtain ⟨c, hc, h0, hk⟩ := hx
    obtain ⟨i, rfl⟩ := Int.eq_ofNat_of_zero_le h0
    exact ⟨i, by omega, h3 i _ hc⟩

/-- More labels than rows, one of the surplus labels being in `0 .. k-1`: IndexError. -/
theorem paramBatch_short (I : Index) (hd : DimOk I d) (S : Stream d) {L : List ℤ}
    (hx : ∃ c ∈ L, 0 ≤ c ∧ c < (uniqueSize (S.map Prod.snd ++ L) : ℤ)) (s : Core) :
    ∃ s', I.mod.paramBatch (encRows (S.map Prod.fst)) (S.map Prod.snd ++ L) s = .err .indexError s' := by
  have e : encRows (S.map Prod.fst) = encRows (S.map Prod.fst ++ []) := by rw [List.append_nil]
  have hl : (encRows (S.map Prod.fst ++ [])).mean0.length = d := mean0_length _
  generalize hk : uniqueSize (S.map Prod.snd ++ L) = k at hx
  cases I
  · refine modify_fails (modify_fails ?_)
    rw [hk]
    refine loop_short (fun i s => stageSep k S s.mu i s) ?_ (fun i hi => .inl (by rw [e]; exact CH.batchStep_eq hi hl))
      (fun i h => by unfold CH.batchStep; rw [subsetIndices_surplus h]) (fun i s h => lift_fails (take_surplus S h)) hx
    simp [stageSep, stage, stageNV, ← mix_zero, Vec.zeros, zeros_rows]
  · refine modify_fails (modify_fails ?_)
    rw [hk]
    refine loop_short (fun i s => stageSep k S s.mu i s) ?_ (fun i hi => .inl (by rw [e]; exact WB.batchStep_eq hi hl))
      (fun i h => by unfold WB.batchStep; rw [subsetIndices_surplus h]) (fun i s h => lift_fails (take_surplus S h)) hx
    simp [stageSep, stage, stageNV, ← mix_zero, Vec.zeros, zeros_rows]
  · refine modify_fails (modify_fails (bind_fails ?_))
    rw [hk]
    refine loop_short (fun i s => stage true k S i s) ?_ (fun i hi => .inl (by rw [e]; exact XB.batchStep_eq hi))
      (fun i h => by unfold XB.batchStep; rw [subsetIndices_surplus h]) (fun i s h => lift_fails (take_surplus S h)) hx
    simp [stage, stageNV, ← mix_zero, Vec.zeros, zeros_rows]
  · refine modify_fails (modify_fails (bind_fails ?_))
    rw [hk]
    refine loop_short (fun i s => DB.stageS k S i s) ?_ (fun i hi => .inl (by rw [e]; exact DB.batchStep_eq hi))
      (fun i h => by unfold DB.batchStep; rw [subsetIndices_surplus h]) (fun i s h => lift_fails (take_surplus S h)) hx
    simp [DB.stageS, stage, stageNV, ← mix_zero, Vec.zeros, zeros_rows]
  · refine modify_fails (modify_fails (bind_fails ?_))
    rw [hk]
    refine loop_short (fun i s => stage false k S i s) ?_ (fun i hi => .inl (by rw [e]; exact XB.batchStep_eq hi))
      (fun i h => by unfold GD43.batchStep; rw [subsetIndices_surplus h]) (fun i s h => lift_fails (take_surplus S h)) hx
    simp [stage, stageNV, ← mix_zero, Vec.zeros, zeros_rows]
  · refine modify_fails (modify_fails (bind_fails ?_))
    rw [hk]
    refine loop_short (fun i s => stage false k S i s) ?_ (fun i hi => .inl (by rw [e]; exact XB.batchStep_eq hi))
      (fun i h => by unfold GD53.batchStep; rw [subsetIndices_surplus h]) (fun i s h => lift_fails (take_surplus S h)) hx
    simp [stage, stageNV, ← mix_zero, Vec.zeros, zeros_rows]
  · refine modify_fails (modify_fails (bind_fails ?_))
    rw [hk]
    refine loop_short (fun i s => stageNV false k S i s) ?_ (fun i hi => .inl (by rw [e]; exact PS.batchStep_eq hi))
      (fun i h => by unfold PS.batchStep; rw [subsetIndices_surplus h]) (fun i s h => lift_fails (take_surplus S h)) hx
    simp [stageNV, ← mix_zero, zeros_rows]
  · have hdt : RCIP.deltaTerm (encRows (S.map Prod.fst)).cols = .ok (RCIP.deltaI d) := RCIP.deltaTerm_eq (hd rfl)
    change ∃ s', RCIP.paramBatch _ _ _ = _
    rw [RCIP.paramBatch, bind_apply, Base.setupBatch, modify_apply, Res.bind_ok, hdt, bind_apply, lift_ok, Res.bind_ok, hk]
    refine modify_fails (bind_fails ?_)
    refine loop_short (fun i s => RCIP.stageR k S i s) ?_
      (fun i hi => .inl (by rw [e]; exact RCIP.batchStep_eq hi rfl rfl))
      (fun i h => by unfold RCIP.batchStep; rw [subsetIndices_surplus h]) (fun i s h => lift_fails (take_surplus S h)) hx
    simp [RCIP.stageR, stageNV, ← mix_zero, zeros_rows]
  · refine modify_fails (modify_fails (bind_fails ?_))
    rw [hk]
    refine loop_short (fun i s => stage true k S i s) ?_ (fun i hi => ?_)
      (fun i h => by unfold CSIL.batchStep; rw [subsetIndices_surplus h]) (fun i s h => lift_fails (take_surplus S h)) hx
    · simp [stage, stageNV, ← mix_zero, Vec.zeros, zeros_rows]
    · rw [e]
      by_cases hs : i < S.length
      · refine .inl ?_
        rw [CSIL.batchStep]
        refine lift_bind (take_subset S [] i) (stage_step hi ?_)
        rw [if_pos (by simpa using hs), pure_apply]
      · refine .inr ?_
        have : ∀ s, CSIL.batchStep (encRows (S.map Prod.fst ++ [])) (S.map Prod.snd) i (stage true k S i s) =
            .err .indexError (stage true k S (i + 1) s) := by
          intro s
          rw [CSIL.batchStep]
          refine lift_bind (take_subset S [] i) (stage_step hi ?_)
          rw [if_neg (by simpa using hs)]; rfl
        exact ⟨_, this _⟩

end Verif
