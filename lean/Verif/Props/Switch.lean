import Verif.Proofs.AfterBatch
import Verif.Proofs.Degenerate
import Verif.Props.Demo

/-!
# C06: single samples after a batch
-/

namespace Verif
open Spec Py

variable {d : ℕ}

/-- **C06** (partial): CH, WB, XB and cSIL refuse.  After a batch call with at least two distinct labels — whatever its data,
whether it returned or raised — and any further calls, a single sample of any length with any label raises.
Missing: DB, GD43, GD53, PS and rCIP, which accept the sample, see `C06_false`. -/
theorem C06_partial (I : Index) (hI : I = .CH ∨ I = .WB ∨ I = .XB ∨ I = .cSIL) (data : Arr2) (l : List ℤ)
    (hl : 1 < l.toFinset.card) (calls : List Call) (y : Vec) (c : ℤ) :
    ∃ e o', getCvi I.mod (.d1 y) (.int c) (after I.mod (⟨.d2 data, .arr l⟩ :: calls) I.mod.fresh) = .err e o' := by
  have hs : I.Stuck := hI
  have h0 : NoG (getCvi I.mod (.d2 data) (.arr l) I.mod.fresh).state.core := by
    have hu : I.mod.update (.d2 data) (.arr l) I.mod.fresh = onCore (I.mod.paramBatch data l) I.mod.fresh := by
      have h1 : I.mod.fresh.core.isSetup = false := by rcases hI with rfl | rfl | rfl | rfl <;> rfl
      have h2 : l.dedup.length > 1 := by rwa [List.card_toFinset] at hl
      simp [Module.update, h1, LabelArg.numUnique, h2, concrete, LabelArg.toList]
    have hb := noG_paramBatch hs data l I.mod.init (by rcases hI with rfl | rfl | rfl | rfl <;> exact ⟨_, rfl, rfl⟩)
    rw [getCvi, bind_apply, hu, onCore]
    have hi : I.mod.fresh.core = I.mod.init := rfl
    rw [hi]
    cases hr : I.mod.paramBatch data l I.mod.init with
    | err e s1 => rw [hr] at hb; exact hb
    | ok a s1 =>
      rw [hr] at hb
      have := noG_evaluate hs s1 hb
      simp only [Res.mapState, Res.bind_ok, bind_apply, onCore]
      cases he : I.mod.evaluate s1 with
      | err e s2 => rw [he] at this; exact this
      | ok a s2 => rw [he] at this; exact this
  have hk : ∀ a l, Keeps NoG (I.mod.paramBatch a l) := fun a l s h => noG_paramBatch hs a l s h.1
  have hP := keeps_after (fun x i => noG_incBody hs x i) hk (noG_evaluate hs) calls _ h0
  obtain ⟨e, s', he, _⟩ := stuck_incBody hs y _ _ hP
  exact call_inc_fails ⟨e, s', he⟩

example : ∃ e o', getCvi (Index.mod .XB) (.d1 [.fin 1]) (.int 0)
    (after (Index.mod .XB) [⟨.d2 ⟨1, [[.fin 1], [.fin 2]]⟩, .arr [0, 1]⟩] (Index.mod .XB).fresh) = .err e o' :=
  C06_partial .XB (by simp) _ _ (by decide) [] _ _

/-- **C06** is false for DB, GD43, GD53, PS and rCIP: after a batch with labels `0 .. k-1` every stream of single samples is
accepted.  The labels are attributed to the clusters of the batch in order of first occurrence, whatever they are: the values
are those of the batch followed by the renumbered stream. -/
theorem C06_false (I : Index) (hI : I = .DB ∨ I = .GD43 ∨ I = .GD53 ∨ I = .PS ∨ I = .rCIP) (hd : DimOk I d) (S : Stream d)
    (hS : Consecutive S) (hk : 2 ≤ numClusters S) :
    ∃ o, getCvi I.mod (.d2 (encRows (S.map Prod.fst))) (.arr (S.map Prod.snd)) I.mod.fresh = .ok (Spec.value I S) o ∧
      ∀ T : Stream d, (feed I.mod (encS T) o).val =
        .ok (T.inits.tail.map fun P => Spec.value I (S ++ renumber P)) := by
  obtain ⟨o, h1, h2, h3⟩ := Index.batchRep hI hd S hS hk
  refine ⟨o, h1, fun T => ?_⟩
  obtain ⟨T0, hp, hT0⟩ := exists_sorted hS
  have hne : T0 ≠ [] := by
    rintro rfl
    have := hp.eq_nil
    subst this
    simp [numClusters, labels] at hk
  have hc : I ≠ .cSIL := by rcases hI with rfl | rfl | rfl | rfl | rfl <;> simp
  obtain ⟨o', h⟩ := feed_renumbered (I.refines hd) hne hT0 [] T o h2 (by simpa [renumber] using h3 T0 hp hT0)
  rw [h, Res.val]
  congr 1
  apply List.map_congr_left
  intro P _
  rw [List.nil_append, Index.actual_eq hc, value_perm I (hp.append_right _)]

/-- The first sample after the batch is attributed to cluster 0 whatever its label: a sample labelled 1 is not. -/
theorem C06_first_false (I : Index) (hI : I = .DB ∨ I = .GD43 ∨ I = .GD53 ∨ I = .PS ∨ I = .rCIP) (hd : DimOk I d) (S : Stream d)
    (hS : Consecutive S) (hk : 2 ≤ numClusters S) (x : Pt d) (c : ℤ) :
    ∃ o o', getCvi I.mod (.d2 (encRows (S.map Prod.fst))) (.arr (S.map Prod.snd)) I.mod.fresh = .ok (Spec.value I S) o ∧
      getCvi I.mod (.d1 (enc x)) (.int c) o = .ok (Spec.value I (S ++ [(x, 0)])) o' := by
  obtain ⟨o, h1, h2⟩ := C06_false I hI hd S hS hk
  have := h2 [(x, c)]
  have e : renumber [(x, c)] = [(x, 0)] := by
    have := renumber_append [] x c
    simpa [renumber, keys, firstSeen] using this
  have e2 : ([(x, c)] : Stream d).inits.tail = [[(x, c)]] := by simp
  rw [e2, List.map_singleton, e] at this
  simp only [encS, List.map_cons, List.map_nil, feed, bind_apply] at this
  cases hr : getCvi I.mod (.d1 (enc x)) (.int c) o with
  | err er s => rw [hr] at this; cases this
  | ok v s =>
    rw [hr] at this
    simp only [Res.bind_ok, pure_apply, Res.val, Except.ok.injEq, List.cons.injEq, and_true] at this
    exact ⟨o, s, h1, by rw [hr, this]⟩

example : ∃ o o', getCvi (Index.mod .PS) (.d2 (encRows (demo.map Prod.fst))) (.arr (demo.map Prod.snd)) (Index.mod .PS).fresh =
      .ok (Spec.value .PS demo) o ∧
    getCvi (Index.mod .PS) (.d1 (enc ![5])) (.int 1) o = .ok (Spec.value .PS (demo ++ [(![5], 0)])) o' :=
  C06_first_false .PS (by simp) (by simp [DimOk]) demo demo_consecutive demo_two _ _

end Verif
