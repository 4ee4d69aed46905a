import Verif.Model.Base
import Mathlib.Data.List.Forall2
import Mathlib.Data.List.Nodup
import Mathlib.Data.List.Perm.Basic

/-! Helper lemmas on exceptions and dictionaries. -/

namespace Trumania

theorem bind_ok {α β : Type} (a : α) (f : α → Py β) : (Except.ok a >>= f) = f a := rfl

theorem bind_error {α β : Type} (e : Err) (f : α → Py β) :
    ((Except.error e : Py α) >>= f) = .error e := rfl

theorem bind_eq_ok {α β : Type} {x : Py α} {f : α → Py β} {b : β} :
    (x >>= f) = .ok b ↔ ∃ a, x = .ok a ∧ f a = .ok b := by
  cases x with
  | error e => simp [bind_error]
  | ok a => simp [bind_ok]

theorem mapM_ok_iff {α β : Type} {f : α → Py β} {l : List α} {r : List β} :
    l.mapM f = .ok r ↔ List.Forall₂ (fun a b => f a = .ok b) l r := by
  induction l generalizing r with
  | nil =>
    simp only [List.mapM_nil, List.forall₂_nil_left_iff]
    constructor
    · intro h; cases h; rfl
    · rintro rfl; rfl
  | cons a l ih =>
    rw [List.mapM_cons, bind_eq_ok]
    simp only [bind_eq_ok, ih, List.forall₂_cons_left_iff]
    constructor
    · rintro ⟨b, hb, r', hr', h⟩
      cases h
      exact ⟨b, r', hb, hr', rfl⟩
    · rintro ⟨b, r', hb, hr', rfl⟩
      exact ⟨b, hb, r', hr', rfl⟩

theorem mapM_ok_of_forall {α β : Type} {f : α → Py β} {g : α → β} {l : List α}
    (h : ∀ a ∈ l, f a = .ok (g a)) : l.mapM f = .ok (l.map g) := by
  rw [mapM_ok_iff]
  induction l with
  | nil => simp
  | cons a l ih =>
    simp only [List.map_cons, List.forall₂_cons]
    exact ⟨h a (by simp), ih fun b hb => h b (by simp [hb])⟩

theorem forall₂_exists_right {α β : Type} {R : α → β → Prop} {l : List α} {r : List β}
    (h : List.Forall₂ R l r) {a : α} (ha : a ∈ l) : ∃ b ∈ r, R a b := by
  induction h with
  | nil => simp at ha
  | cons hab _ ih =>
    rcases List.mem_cons.1 ha with rfl | ha
    · exact ⟨_, by simp, hab⟩
    · obtain ⟨b, hb, hr⟩ := ih ha
      exact ⟨b, by simp [hb], hr⟩

theorem forall₂_exists_left {α β : Type} {R : α → β → Prop} {l : List α} {r : List β}
    (h : List.Forall₂ R l r) {b : β} (hb : b ∈ r) : ∃ a ∈ l, R a b := by
  induction h with
  | nil => simp at hb
  | cons hab _ ih =>
    rcases List.mem_cons.1 hb with rfl | hb
    · exact ⟨_, by simp, hab⟩
    · obtain ⟨a, ha, hr⟩ := ih hb
      exact ⟨a, by simp [ha], hr⟩

/-- `mapM` fails as soon as one element fails -/
theorem mapM_error_of_mem {α β : Type} {f : α → Py β} {l : List α} {a : α} {e : Err}
    (ha : a ∈ l) (h : f a = .error e) : ∃ e', l.mapM f = .error e' := by
  cases hm : l.mapM f with
  | error e' => exact ⟨e', rfl⟩
  | ok r =>
    rw [mapM_ok_iff] at hm
    obtain ⟨b, -, hb⟩ := forall₂_exists_right hm ha
    rw [h] at hb; cases hb

theorem mapM_error_all {α β : Type} {f : α → Py β} {l : List α} {e : Err}
    (h : ∀ a ∈ l, ∀ e', f a = .error e' → e' = e) {e' : Err} (hm : l.mapM f = .error e') :
    e' = e := by
  induction l generalizing e' with
  | nil => simp only [List.mapM_nil] at hm; cases hm
  | cons a l ih =>
    rw [List.mapM_cons] at hm
    cases ha : f a with
    | error e1 => rw [ha, bind_error] at hm; cases hm; exact h a (by simp) _ ha
    | ok b =>
      rw [ha, bind_ok] at hm
      cases hl : l.mapM f with
      | error e1 =>
        rw [hl, bind_error] at hm; cases hm
        exact ih (fun x hx => h x (by simp [hx])) hl
      | ok r => rw [hl, bind_ok] at hm; cases hm

namespace Dict
variable {κ ν : Type} [DecidableEq κ]

@[simp] theorem get?_nil (k : κ) : get? ([] : Dict κ ν) k = none := rfl

theorem get?_cons (k' : κ) (v : ν) (d : Dict κ ν) (k : κ) :
    get? ((k', v) :: d) k = if k' = k then some v else get? d k := rfl

theorem get?_eq_none_iff {d : Dict κ ν} {k : κ} : d.get? k = none ↔ k ∉ d.keys := by
  induction d with
  | nil => simp [keys]
  | cons x d ih =>
    obtain ⟨k', v⟩ := x
    simp only [get?_cons, keys, List.map_cons, List.mem_cons]
    split
    · subst_vars; simp
    · rw [ih]; simp only [keys]; constructor
      · rintro h (h' | h')
        · exact absurd h'.symm ‹_›
        · exact h h'
      · intro h h'; exact h (Or.inr h')

theorem get?_isSome_iff {d : Dict κ ν} {k : κ} : (d.get? k).isSome ↔ k ∈ d.keys := by
  rw [← not_iff_not, Bool.not_eq_true, Option.isSome_eq_false_iff, Option.isNone_iff_eq_none,
    get?_eq_none_iff]

theorem mem_keys_of_get? {d : Dict κ ν} {k : κ} {v : ν} (h : d.get? k = some v) : k ∈ d.keys := by
  rw [← get?_isSome_iff, h]; rfl

theorem exists_get?_of_mem_keys {d : Dict κ ν} {k : κ} (h : k ∈ d.keys) : ∃ v, d.get? k = some v := by
  rw [← get?_isSome_iff, Option.isSome_iff_exists] at h; exact h

theorem get?_mem {d : Dict κ ν} {k : κ} {v : ν} (h : d.get? k = some v) : (k, v) ∈ d := by
  induction d with
  | nil => simp at h
  | cons x d ih =>
    obtain ⟨k', v'⟩ := x
    rw [get?_cons] at h
    split at h
    · cases h; subst_vars; simp
    · exact List.mem_cons_of_mem _ (ih h)

theorem get?_of_mem {d : Dict κ ν} (hd : d.WF) {k : κ} {v : ν} (h : (k, v) ∈ d) :
    d.get? k = some v := by
  induction d with
  | nil => simp at h
  | cons x d ih =>
    obtain ⟨k', v'⟩ := x
    simp only [WF, keys, List.map_cons, List.nodup_cons] at hd
    rw [get?_cons]
    rcases List.mem_cons.1 h with h | h
    · cases h; simp
    · have : k ∈ d.map Prod.fst := List.mem_map.2 ⟨_, h, rfl⟩
      rw [if_neg (by rintro rfl; exact hd.1 this)]
      exact ih hd.2 h

theorem get?_eq_some_iff {d : Dict κ ν} (hd : d.WF) {k : κ} {v : ν} :
    d.get? k = some v ↔ (k, v) ∈ d := ⟨get?_mem, get?_of_mem hd⟩

theorem get?_set (d : Dict κ ν) (k : κ) (v : ν) (k' : κ) :
    (d.set k v).get? k' = if k = k' then some v else d.get? k' := by
  induction d with
  | nil => simp [set, get?_cons]
  | cons x d ih =>
    obtain ⟨k0, v0⟩ := x
    simp only [set]
    split
    · subst_vars; simp only [get?_cons]; split <;> simp_all
    · simp only [get?_cons, ih]
      split
      · subst_vars; rw [if_neg (by rintro rfl; contradiction)]
      · rfl

theorem get?_del {d : Dict κ ν} (hd : d.WF) (k k' : κ) :
    (d.del k).get? k' = if k = k' then none else d.get? k' := by
  induction d with
  | nil => simp [del]
  | cons x d ih =>
    obtain ⟨k0, v0⟩ := x
    simp only [WF, keys, List.map_cons, List.nodup_cons] at hd
    simp only [del]
    split
    · subst_vars
      split
      · subst_vars; exact get?_eq_none_iff.2 hd.1
      · rw [get?_cons, if_neg ‹_›]
    · simp only [get?_cons, ih hd.2]
      split
      · subst_vars; rw [if_neg (by rintro rfl; contradiction)]
      · rfl

@[simp] theorem keys_nil : keys ([] : Dict κ ν) = [] := rfl

@[simp] theorem keys_cons (x : κ × ν) (d : Dict κ ν) : keys (x :: d) = x.1 :: keys d := rfl

theorem keys_set (d : Dict κ ν) (k : κ) (v : ν) :
    (d.set k v).keys = if k ∈ d.keys then d.keys else d.keys ++ [k] := by
  induction d with
  | nil => simp [set]
  | cons x d ih =>
    obtain ⟨k0, v0⟩ := x
    simp only [set, keys_cons, List.mem_cons]
    by_cases h : k0 = k
    · simp [h]
    · rw [if_neg h, keys_cons, ih]
      have : k ≠ k0 := fun e => h e.symm
      simp only [this, false_or]
      split <;> simp

theorem WF.set {d : Dict κ ν} (hd : d.WF) (k : κ) (v : ν) : (d.set k v).WF := by
  rw [WF, keys_set]
  split
  · exact hd
  · exact List.nodup_append.2 ⟨hd, by simp, by
      intro a ha b hb e
      simp only [List.mem_singleton] at hb
      subst hb; subst e; contradiction⟩

theorem del_sublist (d : Dict κ ν) (k : κ) : (d.del k).Sublist d := by
  induction d with
  | nil => exact List.Sublist.refl _
  | cons x d ih =>
    obtain ⟨k0, v0⟩ := x
    simp only [del]
    split
    · exact List.sublist_cons_self _ _
    · exact ih.cons_cons _

theorem WF.del {d : Dict κ ν} (hd : d.WF) (k : κ) : (d.del k).WF :=
  hd.sublist ((del_sublist d k).map _)

/-- two dicts with the same lookups are permutations of each other -/
theorem perm_of_get? {d1 d2 : Dict κ ν} (h1 : d1.WF) (h2 : d2.WF)
    (h : ∀ k, d1.get? k = d2.get? k) : d1.Perm d2 := by
  rw [List.perm_ext_iff_of_nodup h1.of_map h2.of_map]
  rintro ⟨k, v⟩
  rw [← get?_eq_some_iff h1, ← get?_eq_some_iff h2, h]

theorem get?_perm {d1 d2 : Dict κ ν} (h1 : d1.WF) (hp : d1.Perm d2) (k : κ) :
    d1.get? k = d2.get? k := by
  have h2 : d2.WF := (hp.map _).nodup_iff.1 h1
  apply Option.ext
  intro v
  rw [get?_eq_some_iff h1, get?_eq_some_iff h2, hp.mem_iff]

end Dict

end Trumania
