import Verif.Model.Rng
import Verif.Proofs.Basic

/-! Helper lemmas: `np.delete` against the picked elements; random picks. -/

namespace Trumania

variable {α : Type}

/-- what `np.delete` keeps -/
def kept (xs : List α) (idxs : List Nat) : List α :=
  (xs.zipIdx.filter fun x => !idxs.contains x.2).map Prod.fst

/-- what a list of positions designates -/
def picked (xs : List α) (idxs : List Nat) : List α := idxs.filterMap fun i => xs[i]?

theorem npDelete_eq {xs : List α} {idxs : List Nat} (h : ∀ i ∈ idxs, i < xs.length) :
    npDelete xs idxs = .ok (kept xs idxs) := by
  rw [npDelete, if_pos]
  · rfl
  · simpa using h

theorem npDelete_ok {xs ys : List α} {idxs : List Nat} (h : npDelete xs idxs = .ok ys) :
    ys = kept xs idxs ∧ ∀ i ∈ idxs, i < xs.length := by
  rw [npDelete] at h
  split at h
  · cases h; refine ⟨rfl, ?_⟩; rename_i hh; simpa using hh
  · cases h

theorem picked_length {xs : List α} {idxs : List Nat} (h : ∀ i ∈ idxs, i < xs.length) :
    (picked xs idxs).length = idxs.length := by
  induction idxs with
  | nil => rfl
  | cons i is ih =>
    have hi := h i (by simp)
    rw [picked, List.filterMap_cons]
    simp only [List.getElem?_eq_getElem hi, List.length_cons]
    rw [← ih (fun j hj => h j (by simp [hj]))]
    rfl

theorem zipIdx_nodup (xs : List α) : xs.zipIdx.Nodup :=
  List.Nodup.of_map Prod.snd (by
    rw [List.zipIdx_map_snd]; exact List.nodup_range' )

theorem zipIdx_filter_contains_perm {xs : List α} {idxs : List Nat} (hn : idxs.Nodup) :
    (xs.zipIdx.filter fun x => idxs.contains x.2).Perm
      (idxs.filterMap fun i => (xs[i]?).map fun a => (a, i)) := by
  rw [List.perm_ext_iff_of_nodup ((zipIdx_nodup xs).filter _)]
  · rintro ⟨a, i⟩
    rw [List.mem_filter, List.mem_zipIdx_iff_getElem?, List.mem_filterMap]
    simp only [List.contains_eq_mem, decide_eq_true_eq, Option.map_eq_some_iff, Prod.mk.injEq]
    constructor
    · rintro ⟨h1, h2⟩; exact ⟨i, h2, a, h1, rfl, rfl⟩
    · rintro ⟨j, h2, b, h1, rfl, rfl⟩; exact ⟨h1, h2⟩
  · apply List.Nodup.filterMap _ hn
    intro i j b hi hj
    simp only [Option.mem_def, Option.map_eq_some_iff] at hi hj
    obtain ⟨_, -, rfl⟩ := hi
    obtain ⟨_, -, h'⟩ := hj
    exact (Prod.mk.inj h').2.symm

/-- picked elements and kept elements together are the original list -/
theorem picked_kept_perm {xs : List α} {idxs : List Nat} (hn : idxs.Nodup) :
    (picked xs idxs ++ kept xs idxs).Perm xs := by
  have h1 := zipIdx_filter_contains_perm (xs := xs) hn
  have h2 : (picked xs idxs) = (idxs.filterMap fun i => (xs[i]?).map fun a => (a, i)).map Prod.fst := by
    rw [picked, List.map_filterMap]
    congr 1
    funext i
    cases xs[i]? <;> rfl
  rw [h2, kept, ← List.map_append]
  have h3 := (h1.symm.append_right (xs.zipIdx.filter fun x => !idxs.contains x.2)).trans
    (List.filter_append_perm _ _)
  have h4 := h3.map Prod.fst
  rwa [List.zipIdx_map_fst] at h4

theorem kept_length {xs : List α} {idxs : List Nat}
    (h : ∀ i ∈ idxs, i < xs.length) (hn : idxs.Nodup) :
    (kept xs idxs).length = xs.length - idxs.length := by
  have := (picked_kept_perm (xs := xs) hn).length_eq
  rw [List.length_append, picked_length h] at this
  omega

theorem kept_sublist (xs : List α) (idxs : List Nat) : (kept xs idxs).Sublist xs := by
  have : (kept xs idxs).Sublist (xs.zipIdx.map Prod.fst) := (List.filter_sublist).map _
  rwa [List.zipIdx_map_fst] at this

/-- `np.delete` only looks at the set of indices -/
theorem kept_congr {xs : List α} {is js : List Nat} (h : ∀ i, i ∈ is ↔ i ∈ js) :
    kept xs is = kept xs js := by
  rw [kept, kept]
  congr 2
  funext x
  have := h x.2
  by_cases hx : x.2 ∈ is
  · simp [hx, this.1 hx]
  · have : x.2 ∉ js := fun h' => hx (this.2 h')
    simp [hx, this]

namespace Rng
variable {σ : Type} (R : Rng σ)

theorem choiceNoReplace_ok {s s' : σ} {n size : Nat} {idx : List Nat}
    (h : R.choiceNoReplace s n size = .ok (idx, s')) :
    size ≤ n ∧ idx.length = size ∧ idx.Nodup ∧ ∀ i ∈ idx, i < n := by
  rw [choiceNoReplace] at h
  split at h
  · cases h
  split at h
  · cases h
  have hp := R.perm_perm s n
  simp only [Except.ok.injEq, Prod.mk.injEq] at h
  obtain ⟨rfl, -⟩ := h
  refine ⟨by omega, ?_, ?_, ?_⟩
  · rw [List.length_take, hp.length_eq, List.length_range]; omega
  · exact (hp.nodup_iff.2 List.nodup_range).sublist (List.take_sublist _ _)
  · intro i hi
    have := hp.mem_iff.1 (List.mem_of_mem_take hi)
    simpa using this

theorem choiceNoReplace_isOk {s : σ} {n size : Nat} (h : size ≤ n) :
    ∃ r, R.choiceNoReplace s n size = .ok r := by
  rw [choiceNoReplace, if_neg (by omega), if_neg (by omega)]
  exact ⟨_, rfl⟩

theorem choiceNoReplace_error {s : σ} {n size : Nat} (h : n < size) :
    R.choiceNoReplace s n size = .error .valueError := by
  have h' : size > n := h
  simp only [choiceNoReplace, h', if_true, ite_self]

end Rng

end Trumania
