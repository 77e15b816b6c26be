import Verif.Proofs.BatchNaN
import Verif.Proofs.BatchShort
import Verif.Proofs.Similar
import Verif.Props.Demo
import Verif.Props.Protocol

/-!
# C20, C22, C38: batch mode with arbitrary labels
-/

namespace Verif
open Spec Py

variable {d : ℕ}

/-! ## What batch mode returns for every label vector -/

/-- Some label is one of `0 .. k-1`. -/
def SomeInRange (S : Stream d) : Prop := ∃ c ∈ labels S, 0 ≤ c ∧ c < numClusters S

/-- A batch call on a fresh object with the rows `rows` and the labels `l`. -/
noncomputable def batchCall (I : Index) (rows : List (Pt d)) (l : List ℤ) : Except PyErr XR :=
  (getCvi I.mod (.d2 (encRows rows)) (.arr l) I.mod.fresh).val

theorem batchRun_call (I : Index) (S : Stream d) : batchRun I S = batchCall I (S.map Prod.fst) (S.map Prod.snd) := rfl

theorem batchCall_nan (I : Index) (hd : 0 < d) {S : Stream d} (E : List (Pt d)) (hk : 2 ≤ numClusters S)
    (h : ¬ Consecutive S) (hp : I = .PS → SomeInRange S) :
    batchCall I (S.map Prod.fst ++ E) (S.map Prod.snd) = .ok .nan := by
  obtain ⟨e, g⟩ := exists_gap hk h
  have ho := fresh_notSetup I
  have key : NanBatch I.mod S E I.mod.fresh := by
    cases I
    · exact CH.batch_nan g hd ho
    · exact WB.batch_nan g hd ho
    · exact XB.batch_nan g hd ho
    · exact DB.batch_nan g ho
    · exact GD43.batch_nan g hd ho
    · exact GD53.batch_nan g ho
    · refine PS.batch_nan g hd ho ?_
      obtain ⟨c, hc, h1⟩ := hp rfl
      exact ⟨c, hc, mem_rangeKeys.2 h1⟩
    · exact RCIP.batch_nan g hd ho
    · exact CSIL.batch_nan g hd ho
  obtain ⟨o', h⟩ := key
  rw [batchCall, h]; rfl

theorem batchCall_zero (hd : 0 < d) {S : Stream d} (E : List (Pt d)) (hk : 2 ≤ numClusters S) (h : ¬ SomeInRange S) :
    batchCall .PS (S.map Prod.fst ++ E) (S.map Prod.snd) = .error .zeroDivisionError := by
  have hc : ¬ Consecutive S := fun hc => h ⟨0, (hc 0).2 ⟨le_rfl, by exact_mod_cast (by omega : 0 < numClusters S)⟩, le_rfl,
    by exact_mod_cast (by omega : 0 < numClusters S)⟩
  obtain ⟨e, g⟩ := exists_gap hk hc
  obtain ⟨o', h⟩ := PS.batch_zero (E := E) g hd (fresh_notSetup .PS) (by
    rintro ⟨c, hc, hr⟩
    exact h ⟨c, hc, mem_rangeKeys.1 hr⟩)
  change (getCvi PSmod _ _ _).val = _
  rw [show getCvi PSmod _ _ _ = _ from h]; rfl

open Classical in
/-- What a fresh object returns in batch mode, for every stream. -/
noncomputable def batchOutcome (I : Index) (S : Stream d) : Except PyErr XR :=
  if numClusters S < 2 then .error .valueError
  else if Consecutive S then .ok (Spec.value I S)
  else if I = .PS ∧ ¬ SomeInRange S then .error .zeroDivisionError
  else .ok .nan

/-- **C20**, complete description: the outcome of batch mode for every class and every label vector. -/
theorem C20_outcome (I : Index) (hd : 0 < d) (S : Stream d) : batchRun I S = batchOutcome I S := by
  rw [batchOutcome]
  by_cases hk : numClusters S < 2
  · rw [if_pos hk, batchRun]
    have ht : (LabelArg.arr (S.map Prod.snd)).Trivial := by
      intro a ha b hb
      have : (labels S).card ≤ 1 := by rw [numClusters] at hk; omega
      exact Finset.card_le_one.1 this a (by simpa [labels] using ha) b (by simpa [labels] using hb)
    rw [(C04_one_label I.mod _ _ ht _).1]; rfl
  · rw [if_neg hk]
    have hk : 2 ≤ numClusters S := by omega
    by_cases hc : Consecutive S
    · rw [if_pos hc, batchRun_eq (fun _ => hd) hc hk]
    · rw [if_neg hc]
      have hE : S.map Prod.fst = S.map Prod.fst ++ [] := (List.append_nil _).symm
      by_cases hp : I = .PS ∧ ¬ SomeInRange S
      · rw [if_pos hp]
        obtain ⟨rfl, hp⟩ := hp
        rw [batchRun_call, hE, batchCall_zero hd [] hk hp]
      · rw [if_neg hp, batchRun_call, hE, batchCall_nan I hd [] hk hc]
        intro hI
        by_contra h
        exact hp ⟨hI, h⟩

/-- **C20** is false for every class: with two or more labels that are not exactly `0 .. k-1` the batch value is NaN (PS with
no label in `0 .. k-1` raises ZeroDivisionError). -/
theorem C20_false (I : Index) (hd : 0 < d) (S : Stream d) (hk : 2 ≤ numClusters S) (h : ¬ Consecutive S) :
    batchRun I S = .ok .nan ∨ batchRun I S = .error .zeroDivisionError := by
  rw [C20_outcome I hd, batchOutcome, if_neg (by omega), if_neg h]
  split
  · exact .inr rfl
  · exact .inl rfl

/-- **C20**, part that holds: labels that are exactly `0 .. k-1`, in any order of first appearance. -/
theorem C20_partial (I : Index) (hd : DimOk I d) (S : Stream d) (hk : 2 ≤ numClusters S) (h : Consecutive S) :
    batchRun I S = .ok (Spec.value I S) := batchRun_eq hd h hk

/-- The demo data with the labels `1, 2` instead of `0, 1`: the incremental value is `16/3`, the batch value NaN. -/
def demo12 : Stream 1 := [(![0], 1), (![2], 1), (![5], 2)]

theorem demo12_labels : labels demo12 = {1, 2} := by ext; simp [demo12, labels]

theorem demo12_two : numClusters demo12 = 2 := by rw [numClusters, demo12_labels]; rfl

theorem demo12_gap : ¬ Consecutive demo12 := by
  intro h
  have := (h 0).2 ⟨le_rfl, by rw [demo12_two]; norm_num⟩
  rw [demo12_labels] at this
  simp at this

example : batchRun .CH demo12 = .ok .nan := by
  rw [C20_outcome .CH Nat.one_pos, batchOutcome, if_neg (by rw [demo12_two]; omega), if_neg demo12_gap, if_neg (by simp)]
example : batchRun .CH demo = .ok (.fin (16 / 3)) := by
  rw [C20_partial .CH (by simp [DimOk]) demo demo_two demo_consecutive]
  exact congrArg _ demo_CH
example : batchRun .PS ([(![0], 7), (![2], 8), (![2], 8)] : Stream 1) = .error .zeroDivisionError := by
  have hl : labels ([(![0], 7), (![2], 8), (![2], 8)] : Stream 1) = {7, 8} := by ext; simp [labels]
  have hn : numClusters ([(![0], 7), (![2], 8), (![2], 8)] : Stream 1) = 2 := by rw [numClusters, hl]; rfl
  have hs : ¬ SomeInRange ([(![0], 7), (![2], 8), (![2], 8)] : Stream 1) := by
    rintro ⟨c, hc, _, h⟩
    rw [hl] at hc; rw [hn] at h
    simp at hc h; omega
  rw [C20_outcome .PS Nat.one_pos, batchOutcome, if_neg (by omega), if_neg, if_pos ⟨rfl, hs⟩]
  intro h
  exact hs ⟨0, (h 0).2 ⟨le_rfl, by omega⟩, le_rfl, by omega⟩

/-! ## C22 -/

/-- **C22**: permuting rows and labels together does not change what the batch call returns or raises. -/
theorem C22_row_order (I : Index) (hd : 0 < d) (S T : Stream d) (h : S.Perm T) : batchRun I T = batchRun I S := by
  have hl : labels T = labels S := labels_perm h
  have hn : numClusters T = numClusters S := by rw [numClusters, hl]; rfl
  have hc : Consecutive T ↔ Consecutive S := by simp only [Consecutive, hl, hn]
  have hr : SomeInRange T ↔ SomeInRange S := by simp only [SomeInRange, hl, hn]
  rw [C20_outcome I hd, C20_outcome I hd, batchOutcome, batchOutcome, hn, value_perm I h]
  rw [propext hc, propext hr]

example : batchRun .cSIL [(![5], 1), (![0], 0), (![2], 0)] = batchRun .cSIL demo :=
  C22_row_order .cSIL Nat.one_pos demo _ (by
    have := (List.perm_append_comm : ([(![0], 0), (![2], 0)] ++ [(![5], 1)] : Stream 1).Perm _)
    exact this)

/-! ## C38 -/

/-- A call whose `_evaluate` does not raise returns. -/
theorem batch_some {M : Module} {data : Arr2} {S : Stream d} {o : Obj} {s1 : Core} (hM : M.abstract = false)
    (ho : o.core.isSetup = false) (hk : 1 < numClusters S)
    (h1 : M.paramBatch data (S.map Prod.snd) o.core = .ok () s1) (h2 : ∃ s2, M.evaluate s1 = .ok () s2) :
    ∃ v o', getCvi M (.d2 data) (.arr (S.map Prod.snd)) o = .ok v o' := by
  obtain ⟨s2, h2⟩ := h2
  exact ⟨_, _, batch_call hM ho hk h1 h2⟩

theorem CH.batch_more {S : Stream d} (E : List (Pt d)) {o : Obj} (ho : o.core.isSetup = false) (hk : 1 < numClusters S) :
    ∃ v o', getCvi CHmod (.d2 (encRows (S.map Prod.fst ++ E))) (.arr (S.map Prod.snd)) o = .ok v o' := by
  refine batch_some rfl ho hk (CH.paramBatch_eq S E o.core) ⟨?_, ?_⟩
  rotate_left
  show CH.evaluate _ = _
  rw [CH.evaluate]
  refine get_bind ?_
  rw [if_pos (show (CH.batched S E o.core).nClusters > 1 from hk)]
  refine lift_bind rfl ?_
  rw [modify_apply]

theorem WB.batch_more {S : Stream d} (E : List (Pt d)) {o : Obj} (ho : o.core.isSetup = false) (hk : 1 < numClusters S) :
    ∃ v o', getCvi WBmod (.d2 (encRows (S.map Prod.fst ++ E))) (.arr (S.map Prod.snd)) o = .ok v o' := by
  refine batch_some rfl ho hk (WB.paramBatch_eq S E o.core) ⟨?_, ?_⟩
  rotate_left
  show WB.evaluate _ = _
  rw [WB.evaluate]
  refine get_bind ?_
  rw [if_pos (show (CH.batched S E o.core).nClusters > 1 from hk)]
  refine lift_bind rfl ?_
  rw [modify_apply]

theorem XB.batch_more {S : Stream d} (E : List (Pt d)) {o : Obj} (ho : o.core.isSetup = false) (hk : 1 < numClusters S) :
    ∃ v o', getCvi XBmod (.d2 (encRows (S.map Prod.fst ++ E))) (.arr (S.map Prod.snd)) o = .ok v o' := by
  obtain ⟨U, hU, hp⟩ := XB.paramBatch_eq S E o.core
  have hne : upperVals (rangeKeys (numClusters S)) (XB.distX S) ≠ [] := by
    obtain ⟨a, ha, hae⟩ := exists_other (rangeKeys_nodup (numClusters S)) (by simpa using hk) 0
    exact List.ne_nil_of_mem ((mem_upperVals (rangeKeys_nodup _) fun a _ b _ => XB.distX_comm S a b).2
      ⟨a, ha, 0, natCast_mem_rangeKeys (i := 0) (by omega), hae, rfl⟩)
  obtain ⟨m, hm⟩ := amin_ok hne
  refine batch_some rfl ho hk hp ⟨?_, ?_⟩
  rotate_left
  show XB.evaluate _ = _
  rw [XB.evaluate]
  refine get_bind ?_
  rw [if_pos (show (XB.batched0 S E o.core).nClusters > 1 from hk)]
  refine lift_bind rfl (modify_bind (lift_bind (a := upperVals (rangeKeys (numClusters S)) (XB.distX S)) ?_
    (lift_bind hm ?_)))
  · show U.triu U.rows.length = _
    rw [hU.1, triu_upper hU]
  · rw [modify_apply]

/-- **C38** is false: with fewer labels than rows the call returns a value.  For six of the classes the surplus rows are simply
ignored; CH, WB (whose overall mean includes them) and XB (whose sample count does) return something else. -/
theorem C38_false (I : Index) (hd : DimOk I d) (S : Stream d) (E : List (Pt d)) (hk : 2 ≤ numClusters S)
    (h : Consecutive S) :
    (∃ v, batchCall I (S.map Prod.fst ++ E) (S.map Prod.snd) = .ok v) ∧
    (I ≠ .CH → I ≠ .WB → I ≠ .XB →
      batchCall I (S.map Prod.fst ++ E) (S.map Prod.snd) = .ok (Spec.value I S)) := by
  have ho := fresh_notSetup I
  have six : I ≠ .CH → I ≠ .WB → I ≠ .XB →
      batchCall I (S.map Prod.fst ++ E) (S.map Prod.snd) = .ok (Spec.value I S) := by
    intro h1 h2 h3
    have : ∃ o', getCvi I.mod (.d2 (encRows (S.map Prod.fst ++ E))) (.arr (S.map Prod.snd)) I.mod.fresh =
        .ok (Spec.value I S) o' := by
      cases I
      · exact absurd rfl h1
      · exact absurd rfl h2
      · exact absurd rfl h3
      · exact DB.batch_extra E ho hk h
      · exact GD43.batch_extra E ho hk h
      · exact GD53.batch_extra E ho hk h
      · exact PS.batch_extra E ho hk h
      · exact RCIP.batch_extra (hd rfl) E ho hk h
      · exact CSIL.batch_extra E ho hk h
    obtain ⟨o', h⟩ := this
    rw [batchCall, h]; rfl
  refine ⟨?_, six⟩
  have three : (∃ v o', getCvi I.mod (.d2 (encRows (S.map Prod.fst ++ E))) (.arr (S.map Prod.snd)) I.mod.fresh = .ok v o') →
      ∃ v, batchCall I (S.map Prod.fst ++ E) (S.map Prod.snd) = .ok v := by
    rintro ⟨v, o', h⟩
    exact ⟨v, by rw [batchCall, h]; rfl⟩
  by_cases h1 : I = .CH
  · subst h1; exact three (CH.batch_more E ho hk)
  by_cases h2 : I = .WB
  · subst h2; exact three (WB.batch_more E ho hk)
  by_cases h3 : I = .XB
  · subst h3; exact three (XB.batch_more E ho hk)
  exact ⟨_, six h1 h2 h3⟩

/-- **C38**, part that holds: more labels than rows, the labels being exactly `0 .. k-1` (or at least one surplus label being in
that range), raise IndexError. -/
theorem C38_partial (I : Index) (hd : DimOk I d) (rows : List (Pt d)) (l : List ℤ)
    (hx : ∃ t, rows.length ≤ t ∧ ∃ c, l[t]? = some c ∧ 0 ≤ c ∧ c < (l.toFinset.card : ℤ)) (hu : ∃ a ∈ l, ∃ b ∈ l, a ≠ b) :
    batchCall I rows l = .error .indexError := by
  obtain ⟨t, ht, c, hc, h0, h1⟩ := hx
  have hlen : t < l.length := by
    by_contra h
    rw [List.getElem?_eq_none (by omega)] at hc
    cases hc
  set S : Stream d := rows.zip (l.take rows.length) with hS
  have hl : (l.take rows.length).length = rows.length := by rw [List.length_take]; omega
  have e1 : S.map Prod.fst = rows := List.map_fst_zip hl.ge
  have e2 : S.map Prod.snd = l.take rows.length := List.map_snd_zip hl.le
  have e3 : S.map Prod.snd ++ l.drop rows.length = l := by rw [e2, List.take_append_drop]
  have hm : c ∈ l.drop rows.length := by
    refine List.mem_of_getElem? (i := t - rows.length) ?_
    rw [List.getElem?_drop, show rows.length + (t - rows.length) = t by omega, hc]
  have := paramBatch_short I hd S (L := l.drop rows.length) ⟨c, hm, h0, by
    rw [e3, uniqueSize, ← List.card_toFinset]; exact h1⟩ I.mod.fresh.core
  rw [e1, e3] at this
  obtain ⟨s', hs⟩ := this
  have hn : LabelArg.numUnique (.arr l) > 1 := by
    apply one_lt_numUnique
    obtain ⟨a, ha, b, hb, hab⟩ := hu
    exact fun ht => hab (ht a ha b hb)
  have hupd : I.mod.update (.d2 (encRows rows)) (.arr l) I.mod.fresh = .err .indexError ⟨[], s'⟩ := by
    simp only [Module.update]
    rw [if_pos (fresh_notSetup I), if_neg (not_not.2 hn), concrete, if_neg (by simp), LabelArg.toList, onCore, hs]
    rfl
  rw [batchCall, getCvi, bind_apply, hupd]; rfl

/-- Three rows, two labels: the third row is ignored. -/
example : batchCall .DB [![(0 : ℝ)], ![2], ![5], ![100]] [0, 0, 1] = .ok (Spec.value .DB demo) :=
  (C38_false .DB (by simp [DimOk]) demo [![100]] demo_two demo_consecutive).2 (by decide) (by decide) (by decide)
/-- Two rows, three labels. -/
example (I : Index) : batchCall I [![(0 : ℝ)], ![2]] [0, 1, 1] = .error .indexError :=
  C38_partial I (fun _ => Nat.one_pos) _ _ ⟨2, by simp, 1, rfl, by simp, by decide⟩ ⟨0, by simp, 1, by simp, by decide⟩

end Verif
