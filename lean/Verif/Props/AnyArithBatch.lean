import Verif.Gen.BatchRef2
import Verif.Props.AnyArith

/-!
# C70, C71: batches in every floating point arithmetic

`data` are the rows of `S`, labelled, followed by rows `E` without labels (the classes accept more rows than labels).
`k` is the number of different labels.  `Verif/Gen/SpecBatch.lean` writes down the floating point expressions.
-/

namespace Verif.Gen

variable {F : Type} [Arith F] {d : ℕ}

/-- The rows with label `i`. -/
def part (S : Samples F) (i : ℕ) : List (List F) := own S (i : ℤ)

/-- All rows of the data. -/
def allRows (S : Samples F) (E : List (List F)) : List (List F) := S.map Prod.fst ++ E

/-- One call in batch mode. -/
def batchCall (d : ℕ) (I : Index) (S : Samples F) (E : List (List F)) (o : Obj F) : Res (Obj F) F :=
  getCvi (mod F I) (.d2 ⟨d, allRows S E⟩) (.arr (S.map Prod.snd)) o

/-! ## C70: no exception, and which value -/

/-- **C70** (all classes but rCIP): in every arithmetic, for any rows with the same number of features, any labels of at least two
values and any object that has not been set up, a batch raises nothing and returns the value of the specification.  PS needs a row
with a label among `0 … k-1`. -/
theorem C70_batch (I : Index) (hI : I ≠ .rCIP) (S : Samples F) (E : List (List F)) (hS : S.Dim d) (hE : ∀ x ∈ E, x.length = d)
    (hk : 1 < (order S).length) (hp : I = .PS → ∃ i < (order S).length, ∃ x, (x, (i : ℤ)) ∈ S) (o : Obj F)
    (ho : o.core.isSetup = false) :
    ∃ s, batchCall d I S E o = .ok (Batch.value d (order S).length (part S) (allRows S E) I) { o with core := s } ∧
      BatchHeld I d (order S).length (part S) (allRows S E) s := by
  have G := given (E := E) hS hE
  obtain ⟨s, h1, h2⟩ := batch hI G hk (fun h => by
    obtain ⟨i, hi, hx⟩ := hp h
    refine ⟨i, hi, fun e => ?_⟩
    exact (own_eq_nil S).mp e ((mem_order S).mpr hx)) o.core
  exact ⟨s, h1.call (mod_concrete I) ho (by rw [G.size]; exact hk), h2⟩

/-- **C70** (PS): if no label is among `0 … k-1`, PS raises ZeroDivisionError, in every arithmetic. -/
theorem C70_PS_raises (S : Samples F) (E : List (List F)) (hS : S.Dim d) (hE : ∀ x ∈ E, x.length = d)
    (hk : 1 < (order S).length) (hp : ∀ i < (order S).length, ∀ x, (x, (i : ℤ)) ∉ S) (o : Obj F) (ho : o.core.isSetup = false) :
    (batchCall d .PS S E o).val = .error .zeroDivisionError := by
  have G := given (E := E) hS hE
  obtain ⟨s1, s, h1, h2⟩ := PS.batch_err G hk (fun i hi => (own_eq_nil S).mpr fun hm => by
    obtain ⟨x, hx⟩ := (mem_order S).mp hm
    exact hp i hi x hx) o.core
  exact congrArg Res.val (call_err' h1 h2 (mod_concrete .PS) ho (by rw [G.size]; exact hk))

/-- **C70** (rCIP): if `np.linalg.inv` of a `d × d` array is a `d × d` array, a batch returns a value of the specification, or raises
an exception of the libraries, for the sum of the covariances of two clusters; it raises only if the specification has no value, or `d = 0`. -/
theorem C70_rCIP (hi : InvShape F d) (S : Samples F) (E : List (List F)) (hS : S.Dim d) (hE : ∀ x ∈ E, x.length = d)
    (hk : 1 < (order S).length) (o : Obj F) (ho : o.core.isSetup = false) :
    (∃ r s, batchCall d .rCIP S E o = .ok r { o with core := s } ∧
      Batch.Returns d (order S).length (part S) (allRows S E) .rCIP r ∧
      BatchHeld .rCIP d (order S).length (part S) (allRows S E) s) ∨
    ∃ e, (batchCall d .rCIP S E o).val = .error e ∧ LibRaises d (Batch.Summed d (order S).length (part S)) e ∧
      (d ≠ 0 → ∀ r, ¬ Batch.Returns d (order S).length (part S) (allRows S E) .rCIP r) := by
  have G := given (E := E) hS hE
  rcases RCIP.batch hi G hk o.core with ⟨r, s, h1, h2, h3⟩ | ⟨e, s, h1, h2, h3⟩
  · exact Or.inl ⟨r, s, h1.call (mod_concrete .rCIP) ho (by rw [G.size]; exact hk), h2, h3⟩
  · refine Or.inr ⟨e, ?_, h2, h3⟩
    exact congrArg Res.val (call_err h1 (mod_concrete .rCIP) ho (by rw [G.size]; exact hk))

/-! ## C71: what the value depends on -/

section Congr
variable {k : ℕ} {P Q : ℕ → List (List F)} {rows rows' : List (List F)}

omit [Arith F] in
theorem map_range_congr {α : Type} {f g : ℕ → α} (h : ∀ i < k, f i = g i) : (List.range k).map f = (List.range k).map g :=
  List.map_congr_left fun _ hi => h _ (List.mem_range.mp hi)

omit [Arith F] in
theorem map_others_congr {α : Type} {i : ℕ} {f g : ℕ → α} (h : ∀ i < k, f i = g i) :
    ((List.range k).filter (· ≠ i)).map f = ((List.range k).filter (· ≠ i)).map g :=
  List.map_congr_left fun _ hi => h _ (List.mem_range.mp (List.mem_filter.mp hi).1)

theorem table_congr (h : ∀ i < k, P i = Q i) (I : Index) {i j : ℕ} (hi : i < k) (hj : j < k) :
    Batch.table d P I i j = Batch.table d Q I i j := by
  simp only [Batch.table, Batch.both, h i hi, h j hj]

theorem distances_congr (h : ∀ i < k, P i = Q i) (I : Index) : Batch.distances d k P I = Batch.distances d k Q I := by
  apply List.map_congr_left
  intro p hp
  have := mem_pairs hp
  exact table_congr h I (List.mem_range.mp this.1) (List.mem_range.mp this.2)

theorem cell_congr (h : ∀ i < k, P i = Q i) {i j : ℕ} (hi : i < k) (hj : j < k) : Batch.cell d P j i = Batch.cell d Q j i := by
  rw [Batch.cell, Batch.cell, h i hi, h j hj]

theorem batch_value_congr {I : Index} (h : ∀ i < k, P i = Q i) (hn : I = .CH ∨ I = .XB → rows.length = rows'.length)
    (hm : I = .CH ∨ I = .WB → colMeans d rows = colMeans d rows') :
    Batch.value d k P rows I = Batch.value d k Q rows' I := by
  have hcp : (List.range k).map (fun i => (Stat.batch d (P i)).cp) = (List.range k).map fun i => (Stat.batch d (Q i)).cp :=
    map_range_congr fun i hi => by rw [h i hi]
  have hspr : ∀ i < k, Batch.spread d P i = Batch.spread d Q i := fun i hi => by rw [Batch.spread, Batch.spread, h i hi]
  have hsep : colMeans d rows = colMeans d rows' → (List.range k).map (Batch.separation d P rows) =
      (List.range k).map (Batch.separation d Q rows') := fun hm => map_range_congr fun i hi => by
    rw [Batch.separation, Batch.separation, h i hi, hm]
  cases I with
  | CH => simp only [Batch.value, hcp, hsep (hm (Or.inl rfl)), hn (Or.inl rfl)]
  | WB => simp only [Batch.value, hcp, hsep (hm (Or.inr rfl))]
  | XB => simp only [Batch.value, hcp, distances_congr h, hn (Or.inr rfl)]
  | DB =>
    simp only [Batch.value]
    congr 2
    refine map_range_congr fun j hj => ?_
    congr 1
    refine map_range_congr fun i hi => ?_
    simp only [Batch.both, Batch.quotient, hspr i hi, hspr j hj, table_congr h .DB hi hj, table_congr h .DB hj hi]
  | GD43 => simp only [Batch.value, distances_congr h, map_range_congr hspr]
  | GD53 => simp only [Batch.value, distances_congr h, map_range_congr hspr]
  | PS =>
    have hv : Batch.vBar d k P = Batch.vBar d k Q := by
      rw [Batch.vBar, Batch.vBar, map_range_congr fun i hi => by rw [h i hi]]
    have hb : Batch.betaT d k P = Batch.betaT d k Q := by
      rw [Batch.betaT, Batch.betaT, hv, map_range_congr fun i hi => by rw [h i hi]]
    have hl : Batch.largest k P = Batch.largest k Q := by
      rw [Batch.largest, Batch.largest, map_range_congr fun i hi => by rw [h i hi]]
    simp only [Batch.value]
    congr 1
    refine map_range_congr fun i hi => ?_
    rw [Batch.psTerm, Batch.psTerm, hb, hl, h i hi, map_others_congr fun j hj => table_congr h .PS hi hj]
  | cSIL =>
    have ha : ((List.range k).any fun j => (List.range k).any fun i => Arith.truthy (Batch.cell d P j i)) =
        (List.range k).any fun j => (List.range k).any fun i => Arith.truthy (Batch.cell d Q j i) := by
      rw [Bool.eq_iff_iff]
      simp only [List.any_eq_true, List.mem_range]
      constructor
      · rintro ⟨j, hj, i, hi, e⟩
        exact ⟨j, hj, i, hi, cell_congr h hi hj ▸ e⟩
      · rintro ⟨j, hj, i, hi, e⟩
        exact ⟨j, hj, i, hi, (cell_congr h hi hj).symm ▸ e⟩
    have hs : (List.range k).map (Batch.silhouette d k P) = (List.range k).map (Batch.silhouette d k Q) :=
      map_range_congr fun i hi => by
        simp only [Batch.silhouette, cell_congr h hi hi, map_others_congr fun j hj => cell_congr h hi hj]
    simp only [Batch.value, ha, hs]
  | rCIP => rfl

theorem batch_returns_congr (h : ∀ i < k, P i = Q i) {r : F} (hr : Batch.Returns d k P rows .rCIP r) :
    Batch.Returns d k Q rows' .rCIP r := by
  obtain ⟨g, hg, e⟩ := hr
  exact ⟨g, fun i j hij hj => h i (hij.trans hj) ▸ h j hj ▸ hg i j hij hj, e⟩

theorem batch_returns_unique {r r' : F} (hr : Batch.Returns d k P rows .rCIP r) (hr' : Batch.Returns d k P rows' .rCIP r') :
    r = r' := by
  obtain ⟨g, hg, e⟩ := hr
  obtain ⟨g', hg', e'⟩ := hr'
  rw [e, e']
  congr 1
  apply List.map_congr_left
  intro p hp
  have := mem_pairs hp
  have h1 := List.mem_range.mp this.1
  have h2 := List.mem_range.mp this.2
  simp only [Batch.both]
  congr 1
  · split
    · exact overlap_unique (hg _ _ ‹_› h2) (hg' _ _ ‹_› h2)
    · rfl
  · split
    · exact overlap_unique (hg _ _ ‹_› h1) (hg' _ _ ‹_› h1)
    · rfl

end Congr

/-- **C71**: the value of a batch depends only on the rows of the clusters `0 … k-1`, each in its order, on the number of different
labels `k`, for CH and XB on the number of rows, and for CH and WB on the mean of all rows: bit for bit, in every arithmetic.  So for
DB, GD43, GD53, PS and cSIL neither the interleaving of the clusters nor any other row matters. -/
theorem C71_depends (I : Index) (hI : I ≠ .rCIP) {S T : Samples F} {E E' : List (List F)} (hS : S.Dim d) (hT : T.Dim d)
    (hE : ∀ x ∈ E, x.length = d) (hE' : ∀ x ∈ E', x.length = d) (hk : 1 < (order S).length)
    (hST : (order S).length = (order T).length) (h : ∀ i < (order S).length, own S (i : ℤ) = own T (i : ℤ))
    (hn : I = .CH ∨ I = .XB → (allRows S E).length = (allRows T E').length)
    (hm : I = .CH ∨ I = .WB → colMeans d (allRows S E) = colMeans d (allRows T E')) {o o' : Obj F}
    (ho : o.core.isSetup = false) (ho' : o'.core.isSetup = false) :
    (batchCall d I S E o).val = (batchCall d I T E' o').val := by
  by_cases hp : I = .PS → ∃ i < (order S).length, ∃ x, (x, (i : ℤ)) ∈ S
  · obtain ⟨s, e, -⟩ := C70_batch I hI S E hS hE hk hp o ho
    obtain ⟨s', e', -⟩ := C70_batch I hI T E' hT hE' (hST ▸ hk) (fun hi => by
      obtain ⟨i, hi, hx⟩ := hp hi
      refine ⟨i, hST ▸ hi, (mem_order T).mp ?_⟩
      by_contra hc
      exact (own_eq_nil S).mp ((h i hi).trans ((own_eq_nil T).mpr hc)) ((mem_order S).mpr hx)) o' ho'
    rw [e, e', ← hST, batch_value_congr (P := part S) (Q := part T) h hn hm]
    rfl
  · simp only [Classical.not_imp, not_exists, not_and] at hp
    obtain ⟨rfl, hp⟩ := hp
    rw [C70_PS_raises S E hS hE hk hp o ho, C70_PS_raises T E' hT hE' (hST ▸ hk) (fun i hi => by
      have hi' : i < (order S).length := hST ▸ hi
      have : (i : ℤ) ∉ order T := (own_eq_nil T).mp ((h i hi').symm.trans ((own_eq_nil S).mpr fun hm => by
        obtain ⟨x, hx⟩ := (mem_order S).mp hm
        exact hp i hi' x hx))
      exact fun x hx => this ((mem_order T).mpr ⟨x, hx⟩)) o' ho']

/-- **C71** for rCIP: the same value, or both raise. -/
theorem C71_rCIP (hi : InvShape F d) {S T : Samples F} {E E' : List (List F)} (hS : S.Dim d) (hT : T.Dim d)
    (hE : ∀ x ∈ E, x.length = d) (hE' : ∀ x ∈ E', x.length = d) (hk : 1 < (order S).length) (hd : d ≠ 0)
    (hST : (order S).length = (order T).length) (h : ∀ i < (order S).length, own S (i : ℤ) = own T (i : ℤ)) {o o' : Obj F}
    (ho : o.core.isSetup = false) (ho' : o'.core.isSetup = false) :
    (batchCall d .rCIP S E o).val.toOption = (batchCall d .rCIP T E' o').val.toOption := by
  have h' : ∀ i < (order T).length, part T i = part S i := fun i hi => (h i (hST ▸ hi)).symm
  rcases C70_rCIP hi S E hS hE hk o ho with ⟨r, s, e, hr, -⟩ | ⟨x, e, -, hr⟩ <;>
    rcases C70_rCIP hi T E' hT hE' (hST ▸ hk) o' ho' with ⟨r', s', e', hr', -⟩ | ⟨x', e', -, hr'⟩
  · have hrr : r = r' := batch_returns_unique hr (rows' := allRows T E') (hST ▸ batch_returns_congr h' hr')
    rw [e, e', hrr]
    rfl
  · exact absurd (batch_returns_congr (fun i hi => (h i (hST ▸ hi))) (hST ▸ hr)) (hr' hd r)
  · exact absurd (hST ▸ batch_returns_congr h' hr') (hr hd r')
  · rw [e, e']
    rfl

/-! ## Cases -/

/-- Two clusters `0` and `1`, and a label `9` that is not among `0 … k-1`. -/
def batchSample : Samples Cents := [([⟨0⟩], 0), ([⟨500⟩], 1), ([⟨210⟩], 0), ([⟨533⟩], 1), ([⟨100⟩], 0), ([⟨777⟩], 9)]

/-- The same clusters, interleaved in another way, another third label and another row for it. -/
def batchSample' : Samples Cents := [([⟨500⟩], 1), ([⟨533⟩], 1), ([⟨0⟩], 0), ([⟨-900⟩], -4), ([⟨210⟩], 0), ([⟨100⟩], 0)]

theorem dim_of_all {n : ℕ} {S : Samples Cents} (h : S.all fun p => p.1.length == n) : S.Dim n := fun p hp => by
  simpa using List.all_eq_true.mp h p hp

example : batchSample.Dim 1 ∧ batchSample'.Dim 1 ∧ (order batchSample).length = 3 ∧ (order batchSample').length = 3 ∧
    ∀ i : ℕ, i < 3 → own batchSample (i : ℤ) = own batchSample' (i : ℤ) :=
  ⟨dim_of_all (by decide), dim_of_all (by decide), by decide, by decide, by decide⟩

example : (batchCall 1 .CH batchSample [[⟨300⟩]] (mod Cents .CH).fresh).val = .ok ⟨2088⟩ ∧
    Batch.value 1 3 (part batchSample) (allRows batchSample [[⟨300⟩]]) .CH = ⟨2088⟩ := by decide +kernel

/-- CH does depend on the other rows. -/
example : (batchCall 1 .CH batchSample' [] (mod Cents .CH).fresh).val = .ok ⟨2644⟩ := by decide +kernel

example : (batchCall 1 .cSIL batchSample [[⟨300⟩]] (mod Cents .cSIL).fresh).val = .ok ⟨-34⟩ ∧
    (batchCall 1 .cSIL batchSample' [] (mod Cents .cSIL).fresh).val = .ok ⟨-34⟩ := by decide +kernel

example : (batchCall 1 .rCIP batchSample [[⟨300⟩]] (mod Cents .rCIP).fresh).val = .ok ⟨-3735⟩ ∧
    (batchCall 1 .rCIP batchSample' [] (mod Cents .rCIP).fresh).val = .ok ⟨-3735⟩ := by decide +kernel

/-- PS without a label among `0, 1`. -/
example : (batchCall 1 .PS [([⟨0⟩], 7), ([⟨500⟩], -1)] [] (mod Cents .PS).fresh).val = .error .zeroDivisionError := by
  decide +kernel

/-- An inverse that does not exist: `d = 3` features overflow the normalisation in this arithmetic. -/
example : (batchCall 3 .rCIP [([⟨0⟩, ⟨0⟩, ⟨0⟩], 0), ([⟨1⟩, ⟨1⟩, ⟨1⟩], 1)] [] (mod Cents .rCIP).fresh).val =
    .error .overflowError := by decide +kernel

/-- The batch values are not the incremental ones, bit for bit: in an arithmetic that rounds, every class has data for which the two
differ.  (In exact arithmetic they agree for all classes but cSIL: C11 to C18.) -/
theorem C71_incremental_differs (I : Index) : ∃ S : Samples Cents, S.Dim 1 ∧ order S = [0, 1] ∧
    ∃ a b, (batchCall 1 I S [] (mod Cents I).fresh).val = .ok a ∧
      (feed (mod Cents I) S (mod Cents I).fresh).val.toOption.bind List.getLast? = some b ∧ a ≠ b := by
  have hA : ∀ x y z u v w : ℤ, Samples.Dim (F := Cents) 1
      [([⟨x⟩], 0), ([⟨y⟩], 1), ([⟨z⟩], 0), ([⟨u⟩], 1), ([⟨v⟩], 0), ([⟨w⟩], 1)] := fun _ _ _ _ _ _ => dim_of_all rfl
  cases I with
  | CH => exact ⟨_, hA 237 317 397 477 557 38, by decide, ⟨56⟩, ⟨52⟩, by decide +kernel, by decide +kernel, by decide⟩
  | WB => exact ⟨_, hA 163 98 33 567 502 437, by decide, ⟨1736⟩, ⟨1676⟩, by decide +kernel, by decide +kernel, by decide⟩
  | XB => exact ⟨_, hA 163 98 33 567 502 437, by decide, ⟨214⟩, ⟨208⟩, by decide +kernel, by decide +kernel, by decide⟩
  | DB => exact ⟨_, hA 163 98 33 567 502 437, by decide, ⟨428⟩, ⟨416⟩, by decide +kernel, by decide +kernel, by decide⟩
  | GD43 => exact ⟨_, hA 237 317 397 477 557 38, by decide, ⟨18⟩, ⟨16⟩, by decide +kernel, by decide +kernel, by decide⟩
  | GD53 => exact ⟨_, hA 163 98 33 567 502 437, by decide, ⟨50⟩, ⟨49⟩, by decide +kernel, by decide +kernel, by decide⟩
  | PS => exact ⟨_, hA 163 98 33 567 502 437, by decide, ⟨810⟩, ⟨814⟩, by decide +kernel, by decide +kernel, by decide⟩
  | cSIL => exact ⟨_, hA 163 98 33 567 502 437, by decide, ⟨31⟩, ⟨-46⟩, by decide +kernel, by decide +kernel, by decide⟩
  | rCIP => exact ⟨early, dim_of_all rfl, by decide, ⟨-153⟩, ⟨-175⟩, by decide +kernel, by decide +kernel, by decide⟩

end Verif.Gen
