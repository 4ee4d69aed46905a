import Verif.Model.Components
import Verif.Proofs.Basic
import Mathlib.Data.List.Nodup

/-!
# Properties C69 (work hours) and C72 (bipartite data)
-/

namespace Trumania

/-! ### C69 -/

theorem getElem?_flatten_replicate {α : Type} (l : List α) (n day hour : Nat) (hd : day < n)
    (hh : hour < l.length) :
    ((List.replicate n l).flatten)[day * l.length + hour]? = l[hour]? := by
  induction n generalizing day with
  | zero => omega
  | succ n ih =>
    rw [List.replicate_succ, List.flatten_cons]
    cases day with
    | zero => rw [Nat.zero_mul, Nat.zero_add, List.getElem?_append_left hh]
    | succ day =>
      rw [List.getElem?_append_right (by rw [Nat.succ_mul]; omega)]
      rw [show (day + 1) * l.length + hour - l.length = day * l.length + hour by
        rw [Nat.succ_mul]; omega]
      exact ih day (by omega)

theorem length_flatten_replicate {α : Type} (l : List α) (n : Nat) :
    ((List.replicate n l).flatten).length = n * l.length := by
  induction n with
  | zero => simp
  | succ n ih => rw [List.replicate_succ, List.flatten_cons, List.length_append, ih, Nat.succ_mul,
      Nat.add_comm]

/-- **C69** the work hours profile has 7*24 hours, with weight 1 exactly for the work hours of the
five first days, and weight 0 elsewhere. -/
theorem C69_work_hours (start_hour end_hour : Int) (h0 : 0 ≤ start_hour) (h1 : end_hour < 24)
    (h2 : start_hour ≤ end_hour) :
    ∃ prof, workHoursProfile start_hour end_hour = .ok prof ∧ prof.length = 7 * 24 ∧
      ∀ day hour : Nat, day < 7 → hour < 24 →
        prof[day * 24 + hour]? =
          some (if day < 5 ∧ start_hour ≤ hour ∧ (hour : Int) ≤ end_hour then 1 else 0) := by
  have hwl : (List.replicate start_hour.toNat (0 : Rat) ++
      List.replicate (end_hour - start_hour + 1).toNat (1 : Rat) ++
      List.replicate (23 - end_hour).toNat (0 : Rat)).length = 24 := by
    simp only [List.length_append, List.length_replicate]; omega
  refine ⟨_, by rw [workHoursProfile, if_neg (by omega), if_neg (by omega), if_neg (by omega)],
    ?_, ?_⟩
  · rw [List.length_append, length_flatten_replicate, length_flatten_replicate, hwl]
    simp
  · intro day hour hd hh
    by_cases h5 : day < 5
    · rw [List.getElem?_append_left (by rw [length_flatten_replicate, hwl]; omega)]
      have := getElem?_flatten_replicate (List.replicate start_hour.toNat (0 : Rat) ++
        List.replicate (end_hour - start_hour + 1).toNat (1 : Rat) ++
        List.replicate (23 - end_hour).toNat (0 : Rat)) 5 day hour h5 (by omega)
      rw [hwl] at this
      rw [this, List.getElem?_append, List.getElem?_append]
      simp only [List.length_append, List.length_replicate, List.getElem?_replicate, h5, true_and]
      grind
    · rw [List.getElem?_append_right (by rw [length_flatten_replicate, hwl]; omega),
        length_flatten_replicate, hwl]
      have := getElem?_flatten_replicate (List.replicate 24 (0 : Rat)) 2 (day - 5) hour (by omega)
        (by simpa using hh)
      rw [List.length_replicate] at this
      rw [show day * 24 + hour - 5 * 24 = (day - 5) * 24 + hour by omega, this]
      rw [List.getElem?_replicate, if_pos hh, if_neg (fun h => h5 h.1)]

/-- **C69** other bounds are rejected. -/
theorem C69_work_hours_rejected (start_hour end_hour : Int)
    (h : start_hour < 0 ∨ 24 ≤ end_hour ∨ end_hour < start_hour) :
    workHoursProfile start_hour end_hour = .error .assertionError := by
  rw [workHoursProfile]
  split
  · rfl
  · split
    · rfl
    · split
      · rfl
      · omega

example : (workHoursProfile 9 17).map (fun p => (p[8]?, p[9]?, p[17]?, p[18]?, p[5 * 24 + 10]?)) =
    .ok (some 0, some 1, some 1, some 0, some 0) := by decide +kernel

/-! ### C72 -/

/-- The edges networkx' `bipartite.random_graph(n1, n2, ...)` may return: distinct pairs from the
nodes `0..n1-1` to the nodes `n1..n1+n2-1`. -/
structure Spec.BipartiteEdges (n1 n2 : Nat) (edges : List (Nat × Nat)) : Prop where
  nodup : edges.Nodup
  from_lt : ∀ e ∈ edges, e.1 < n1
  to_ge : ∀ e ∈ edges, n1 ≤ e.2
  to_lt : ∀ e ∈ edges, e.2 < n1 + n2

/-- **C72** the pairs returned are the elements at distinct pairs of positions of the groups. -/
theorem C72_bipartite {α β : Type} (group1 : List α) (group2 : List β) (p : Rat)
    (edges : List (Nat × Nat)) (he : Spec.BipartiteEdges group1.length group2.length edges)
    (out : List (α × β)) (h : make_random_bipartite_data group1 group2 p edges = .ok out) :
    ∃ pos : List (Nat × Nat), pos.Nodup ∧
      List.Forall₂ (fun ij ab => group1[ij.1]? = some ab.1 ∧ group2[ij.2]? = some ab.2) pos out := by
  rw [make_random_bipartite_data] at h
  split at h
  · cases h; exact ⟨[], by simp, by simp⟩
  · split at h
    · cases h
    · rw [mapM_ok_iff] at h
      refine ⟨edges.map fun e => (e.1, e.2 - group1.length), ?_, ?_⟩
      · refine he.nodup.map_on ?_
        rintro ⟨a, b⟩ h1 ⟨c, d⟩ h2 heq
        have g1 := he.to_ge _ h1
        have g2 := he.to_ge _ h2
        simp only [Prod.mk.injEq] at heq ⊢
        simp only at g1 g2
        omega
      · rw [List.forall₂_map_left_iff]
        refine h.imp ?_
        rintro ⟨i, j⟩ ⟨a, b⟩ hij
        simp only [bind_eq_ok] at hij
        obtain ⟨a', h1, h2⟩ := hij
        split at h2
        · cases h2
        · simp only [bind_eq_ok] at h2
          obtain ⟨b', h3, h4⟩ := h2
          cases h4
          rw [nth] at h1 h3
          split at h1 <;> cases h1
          split at h3 <;> cases h3
          exact ⟨by assumption, by assumption⟩

/-- **C72** empty groups or a null probability give no pair, without error. -/
theorem C72_bipartite_empty {α β : Type} (group1 : List α) (group2 : List β) (p : Rat)
    (edges : List (Nat × Nat)) (h : group1 = [] ∨ group2 = [] ∨ p = 0) :
    make_random_bipartite_data group1 group2 p edges = .ok [] := by
  rw [make_random_bipartite_data, if_pos]
  rcases h with rfl | rfl | h
  · simp
  · simp
  · simp [h]

/-- **C72** when at least one edge is drawn the pairs are always returned, one per edge. -/
theorem C72_bipartite_total {α β : Type} (group1 : List α) (group2 : List β) (p : Rat)
    (edges : List (Nat × Nat)) (he : Spec.BipartiteEdges group1.length group2.length edges)
    (hne : edges ≠ []) (h1 : group1 ≠ []) (h2 : group2 ≠ []) (hp : p ≠ 0) :
    ∃ out, make_random_bipartite_data group1 group2 p edges = .ok out ∧
      out.length = edges.length := by
  have hg : ¬ (group1.length = 0 ∨ group2.length = 0 ∨ p = 0) := by simp [h1, h2, hp]
  have hex : ∀ es : List (Nat × Nat), (∀ e ∈ es, e ∈ edges) →
      ∃ out, es.mapM (fun e => do
        let a ← nth group1 e.1
        if e.2 < group1.length then .error .indexError
        else
          let b ← nth group2 (e.2 - group1.length)
          .ok (a, b)) = Except.ok (ε := Err) out := by
    intro es
    induction es with
    | nil => intro _; exact ⟨[], rfl⟩
    | cons e es ih =>
      intro hes
      obtain ⟨out, ho⟩ := ih (fun x hx => hes x (by simp [hx]))
      have hm := hes e (by simp)
      have g1 := he.from_lt _ hm
      have g2 := he.to_ge _ hm
      have g3 := he.to_lt _ hm
      rw [List.mapM_cons, ho]
      have g4 : e.2 - group1.length < group2.length := by omega
      simp only [nth, List.getElem?_eq_getElem g1, List.getElem?_eq_getElem g4, not_lt.2 g2,
        if_false, bind_ok]
      exact ⟨_, rfl⟩
  obtain ⟨out, ho⟩ := hex edges (fun _ h => h)
  refine ⟨out, by rw [make_random_bipartite_data, if_neg hg, if_neg hne]; exact ho, ?_⟩
  rw [mapM_ok_iff] at ho
  exact ho.length_eq.symm

example : make_random_bipartite_data ["a", "b"] ["x", "y", "z"] (1/2) [(0, 2), (0, 4), (1, 3)] =
    .ok [("a", "x"), ("a", "z"), ("b", "y")] := by decide +kernel

example : Spec.BipartiteEdges 2 3 [(0, 2), (0, 4), (1, 3)] :=
  ⟨by decide, by decide, by decide, by decide⟩

end Trumania
