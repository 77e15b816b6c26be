import Verif.Old.GD

/-! # Assigning the entries of a matrix one after the other -/

namespace Verif.Old
open V0

variable {α β γ : Type}

theorem getAt_nat {l : List α} {j : ℕ} (h : j < l.length) : getAt l (j : ℤ) = .ok l[j] := by
  simp [getAt, pyIdx, h]
theorem setAt_nat {l : List α} {j : ℕ} (h : j < l.length) (a : α) : setAt l (j : ℤ) a = .ok (l.set j a) := by
  simp [setAt, pyIdx, h]
theorem getAt_append (pre : List α) (a : α) (suf : List α) : getAt (pre ++ a :: suf) (pre.length : ℤ) = .ok a := by
  rw [getAt_nat (by simp)]; simp

theorem mapE_congr {f g : α → Except PyErr β} {l : List α} (h : ∀ a ∈ l, f a = g a) : mapE f l = mapE g l := by
  induction l with
  | nil => rfl
  | cons a l ih =>
    simp only [mapE, h a List.mem_cons_self, ih fun b hb => h b (List.mem_cons_of_mem _ hb)]

theorem foldE_congr {f g : α → β → Except PyErr β} {l : List α} (h : ∀ a ∈ l, ∀ b, f a b = g a b) (b : β) : foldE f l b = foldE g l b := by
  induction l generalizing b with
  | nil => rfl
  | cons a l ih =>
    simp only [foldE, h a List.mem_cons_self]
    cases g a b with
    | error e => rfl
    | ok b' => exact ih (fun a ha => h a (List.mem_cons_of_mem _ ha)) b'

/-- Replace the first `n` items, each by a function of its position (counted from `m`) and itself. -/
def upd (G : ℕ → α → Except PyErr α) : ℕ → ℕ → List α → Except PyErr (List α)
  | _, 0, l => .ok l
  | _, _ + 1, [] => .ok []
  | m, n + 1, a :: l => G m a >>= fun e => upd G (m + 1) n l >>= fun l' => .ok (e :: l')

theorem foldE_upd (G : ℕ → α → Except PyErr α) (n : ℕ) : ∀ (m : ℕ) (pre suf : List α), pre.length = m → n ≤ suf.length →
    foldE (fun (j : ℕ) r => getAt r (j : ℤ) >>= fun a => G j a >>= fun e => setAt r (j : ℤ) e) (List.range' m n) (pre ++ suf) =
      upd G m n suf >>= fun l => .ok (pre ++ l) := by
  induction n with
  | zero => intro m pre suf _ _; rfl
  | succ n ih =>
    rintro m pre (_ | ⟨a, suf⟩) hm hn
    · simp at hn
    · subst hm
      simp only [List.range'_succ, foldE, upd, getAt_append, except_bind_ok]
      cases G pre.length a with
      | error e => rfl
      | ok e =>
        have h1 : setAt (pre ++ a :: suf) (pre.length : ℤ) e = .ok ((pre ++ [e]) ++ suf) := by
          rw [setAt_nat (by simp)]; simp
        simp only [except_bind_ok, h1]
        rw [ih (pre.length + 1) (pre ++ [e]) suf (by simp) (by simpa using hn)]
        cases upd G (pre.length + 1) n suf with
        | error e => rfl
        | ok l => simp

theorem mapE_upd (G : ℕ → α → Except PyErr α) (n : ℕ) : ∀ (m : ℕ) (pre suf : List α), pre.length = m → n ≤ suf.length →
    (mapE (fun j : ℕ => getAt (pre ++ suf) (j : ℤ) >>= G j) (List.range' m n) >>= fun es => .ok (es ++ suf.drop n)) = upd G m n suf := by
  induction n with
  | zero => intro m pre suf _ _; simp [mapE, upd]
  | succ n ih =>
    rintro m pre (_ | ⟨a, suf⟩) hm hn
    · simp at hn
    · subst hm
      have h1 := ih (pre.length + 1) (pre ++ [a]) suf (by simp) (by simpa using hn)
      have h2 : pre ++ [a] ++ suf = pre ++ a :: suf := by simp
      rw [h2] at h1
      simp only [List.range'_succ, mapE, upd, getAt_append, except_bind_ok]
      cases G pre.length a with
      | error e => rfl
      | ok e =>
        simp only [except_bind_ok, ← h1]
        cases mapE (fun j : ℕ => getAt (pre ++ a :: suf) (j : ℤ) >>= G j) (List.range' (pre.length + 1) n) with
        | error e => rfl
        | ok l => simp

/-- Items assigned one after the other are those computed from the original ones. -/
theorem fold_items (G : ℕ → α → Except PyErr α) (k : ℕ) (l : List α) (h : k ≤ l.length) :
    foldE (fun (j : ℕ) r => getAt r (j : ℤ) >>= fun a => G j a >>= fun e => setAt r (j : ℤ) e) (List.range k) l =
      mapE (fun j : ℕ => getAt l (j : ℤ) >>= G j) (List.range k) >>= fun es => .ok (es ++ l.drop k) := by
  have h1 := foldE_upd G k 0 [] l rfl h
  have h2 := mapE_upd G k 0 [] l rfl h
  rw [← List.range_eq_range'] at h1 h2
  simp only [List.nil_append] at h1 h2
  rw [h1, h2]
  cases upd G 0 k l <;> rfl

theorem mapE_zip (H : ℕ → α → Except PyErr β) (F : β → α → γ) (n : ℕ) : ∀ (m : ℕ) (pre suf : List α), pre.length = m → n ≤ suf.length →
    mapE (fun i : ℕ => getAt (pre ++ suf) (i : ℤ) >>= fun r => H i r >>= fun e => .ok (F e r)) (List.range' m n) =
      mapE (fun i : ℕ => getAt (pre ++ suf) (i : ℤ) >>= H i) (List.range' m n) >>= fun es => .ok (List.zipWith F es (suf.take n)) := by
  induction n with
  | zero => intro m pre suf _ _; simp [mapE]
  | succ n ih =>
    rintro m pre (_ | ⟨a, suf⟩) hm hn
    · simp at hn
    · subst hm
      have h1 := ih (pre.length + 1) (pre ++ [a]) suf (by simp) (by simpa using hn)
      have h2 : pre ++ [a] ++ suf = pre ++ a :: suf := by simp
      rw [h2] at h1
      simp only [List.range'_succ, mapE, getAt_append, except_bind_ok]
      cases H pre.length a with
      | error e => rfl
      | ok e =>
        simp only [except_bind_ok, h1]
        cases mapE (fun i : ℕ => getAt (pre ++ a :: suf) (i : ℤ) >>= H i) (List.range' (pre.length + 1) n) with
        | error e => rfl
        | ok l => simp

theorem zip_items (H : ℕ → α → Except PyErr β) (F : β → α → γ) (k : ℕ) (l : List α) (h : k ≤ l.length) :
    mapE (fun i : ℕ => getAt l (i : ℤ) >>= fun r => H i r >>= fun e => .ok (F e r)) (List.range k) =
      mapE (fun i : ℕ => getAt l (i : ℤ) >>= H i) (List.range k) >>= fun es => .ok (List.zipWith F es (l.take k)) := by
  have h1 := mapE_zip H F k 0 [] l rfl h
  rw [← List.range_eq_range'] at h1
  exact h1

/-- Assigning in a row of a matrix. -/
theorem fold_row (G : ℕ → XR → Except PyErr XR) (l : List ℕ) (i : ℕ) : ∀ (a : Arr2) (h : i < a.rows.length),
    foldE (fun (j : ℕ) a => getAt2 a (i : ℤ) (j : ℤ) >>= fun y => G j y >>= fun e => setAt2 a (i : ℤ) (j : ℤ) e) l a =
      (foldE (fun (j : ℕ) r => getAt r (j : ℤ) >>= fun y => G j y >>= fun e => setAt r (j : ℤ) e) l a.rows[i] >>= fun r =>
        .ok ⟨a.cols, a.rows.set i r⟩) := by
  induction l with
  | nil =>
    intro a h
    simp [foldE]
  | cons j l ih =>
    intro a h
    simp only [foldE, getAt2, setAt2, getAt_nat h, except_bind_ok]
    cases getAt a.rows[i] (j : ℤ) with
    | error e => rfl
    | ok y =>
      simp only [except_bind_ok]
      cases G j y with
      | error e => rfl
      | ok e =>
        simp only [except_bind_ok]
        cases setAt a.rows[i] (j : ℤ) e with
        | error e => rfl
        | ok r =>
          have h2 := ih ⟨a.cols, a.rows.set i r⟩ (by simpa using h)
          simp only [getAt2, setAt2, List.getElem_set_self, List.set_set] at h2
          simp only [except_bind_ok, setAt_nat h, except_pure]
          exact h2

/-- Rows assigned one after the other. -/
theorem fold_rows (R : ℕ → Arr2 → Except PyErr Arr2) (S : ℕ → Vec → Except PyErr Vec) (l : List ℕ) (cols : ℕ) :
    ∀ (rows : List Vec), (∀ i ∈ l, i < rows.length) →
    (∀ i (a : Arr2) (h : i < a.rows.length), R i a = S i a.rows[i] >>= fun r => .ok ⟨a.cols, a.rows.set i r⟩) →
    foldE R l ⟨cols, rows⟩ =
      (foldE (fun (i : ℕ) rows => getAt rows (i : ℤ) >>= fun r => S i r >>= fun r' => setAt rows (i : ℤ) r') l rows >>= fun rows' => .ok ⟨cols, rows'⟩) := by
  induction l with
  | nil => intro rows _ _; rfl
  | cons i l ih =>
    intro rows hl hR
    have hi : i < rows.length := hl i List.mem_cons_self
    simp only [foldE, hR i ⟨cols, rows⟩ hi, getAt_nat hi, except_bind_ok, setAt_nat hi]
    cases S i rows[i] with
    | error e => rfl
    | ok r =>
      simp only [except_bind_ok]
      exact ih _ (fun j hj => by simpa using hl j (List.mem_cons_of_mem _ hj)) hR

/-- **Entries assigned one after the other** are those computed from the original matrix. -/
theorem fold_matrix (G : ℕ → ℕ → XR → Except PyErr XR) (k : ℕ) (a : Arr2) (hk : k ≤ a.rows.length) (hr : ∀ r ∈ a.rows, k ≤ r.length) :
    foldE (fun (i : ℕ) a => foldE (fun (j : ℕ) a => getAt2 a (i : ℤ) (j : ℤ) >>= fun y => G i j y >>= fun e => setAt2 a (i : ℤ) (j : ℤ) e) (List.range k) a)
        (List.range k) a =
      mapE (fun i : ℕ => mapE (fun j : ℕ => getAt2 a (i : ℤ) (j : ℤ) >>= G i j) (List.range k)) (List.range k) >>= fun es =>
        .ok ⟨a.cols, List.zipWith (fun e r => e ++ r.drop k) es (a.rows.take k) ++ a.rows.drop k⟩ := by
  have h1 := fold_rows _ (fun i r => foldE (fun (j : ℕ) r => getAt r (j : ℤ) >>= fun y => G i j y >>= fun e => setAt r (j : ℤ) e) (List.range k) r)
    (List.range k) a.cols a.rows (fun i hi => lt_of_lt_of_le (List.mem_range.1 hi) hk) (fun i a h => fold_row (G i) (List.range k) i a h)
  have h0 : (⟨a.cols, a.rows⟩ : Arr2) = a := rfl
  rw [h0] at h1
  rw [h1, fold_items _ k a.rows hk]
  have h2 : mapE (fun i : ℕ => getAt a.rows (i : ℤ) >>= fun r =>
        foldE (fun (j : ℕ) r => getAt r (j : ℤ) >>= fun y => G i j y >>= fun e => setAt r (j : ℤ) e) (List.range k) r) (List.range k) =
      mapE (fun i : ℕ => getAt a.rows (i : ℤ) >>= fun r =>
        mapE (fun j : ℕ => getAt r (j : ℤ) >>= G i j) (List.range k) >>= fun e => .ok (e ++ r.drop k)) (List.range k) := by
    refine mapE_congr fun i hi => ?_
    have hi' : i < a.rows.length := lt_of_lt_of_le (List.mem_range.1 hi) hk
    simp only [getAt_nat hi', except_bind_ok]
    exact fold_items (G i) k _ (hr _ (List.getElem_mem hi'))
  have h3 := zip_items (fun i (r : Vec) => mapE (fun j : ℕ => getAt r (j : ℤ) >>= G i j) (List.range k)) (fun e r => e ++ r.drop k) k a.rows hk
  have h4 : mapE (fun i : ℕ => getAt a.rows (i : ℤ) >>= fun r => mapE (fun j : ℕ => getAt r (j : ℤ) >>= G i j) (List.range k)) (List.range k) =
      mapE (fun i : ℕ => mapE (fun j : ℕ => getAt2 a (i : ℤ) (j : ℤ) >>= G i j) (List.range k)) (List.range k) := by
    refine mapE_congr fun i hi => ?_
    have hi' : i < a.rows.length := lt_of_lt_of_le (List.mem_range.1 hi) hk
    simp only [getAt2, getAt_nat hi', except_bind_ok]
  rw [h2, h3, h4]
  cases mapE (fun i : ℕ => mapE (fun j : ℕ => getAt2 a (i : ℤ) (j : ℤ) >>= G i j) (List.range k)) (List.range k) <;> rfl

end Verif.Old
