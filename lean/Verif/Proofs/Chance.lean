import Verif.Spec.Chance
import Verif.Proofs.Choice
import Verif.Proofs.Select
import Verif.Proofs.RelationshipHistory

/-! Shares of weighted draws. -/

namespace Trumania
open Spec
variable {σ : Type}

theorem searchRight_share {p : List Rat} {acc v : Rat} (hv : acc ≤ v) (hv' : v < acc + p.sum) :
    acc + (p.take (searchRight (cumsum acc p) v)).sum ≤ v ∧
      v < acc + (p.take (searchRight (cumsum acc p) v + 1)).sum := by
  induction p generalizing acc with
  | nil => simp at hv'; linarith
  | cons x xs ih =>
    rw [List.sum_cons] at hv'
    by_cases h : acc + x ≤ v
    · have ih' := ih h (by linarith)
      simp only [searchRight, cumsum, List.takeWhile_cons, h, decide_true, if_true,
        List.length_cons, List.take_succ_cons, List.sum_cons] at ih' ⊢
      constructor
      · linarith [ih'.1]
      · linarith [ih'.2]
    · simp only [searchRight, cumsum, List.takeWhile_cons, h, decide_false, Bool.false_eq_true,
        if_false, List.length_nil, List.take_zero, List.sum_nil, zero_add, List.take_succ_cons,
        List.take_zero, List.sum_cons]
      constructor <;> linarith

theorem choiceP_shares (R : Rng σ) {s s' : σ} {n size : Nat} {p : List Rat} {is : List Nat}
    (h : R.choiceP s n size p = .ok (is, s')) :
    p.length = n ∧ (∀ x ∈ p, 0 ≤ x) ∧ 0 < p.sum ∧ s' = (R.uniform s size).2 ∧
      List.Forall₂ (fun u i => Share p i u) (R.uniform s size).1 is := by
  have hlen := (R.choiceP_ok h).1
  rw [Rng.choiceP] at h
  split at h
  · cases h
  split at h
  · cases h
  split at h
  · cases h
  split at h
  · cases h
  rename_i h1 h2 h3 h4
  simp only [Except.ok.injEq, Prod.mk.injEq] at h
  obtain ⟨rfl, rfl⟩ := h
  have hnn : ∀ x ∈ p, 0 ≤ x := by simpa using h3
  have hs : 0 < p.sum := by
    rw [not_or] at h4
    have h5 := h4.2
    rw [Rng.pTol] at h5
    by_contra hc
    apply h5
    have : p.sum ≤ 0 := not_lt.1 hc
    have : (1 : Rat) / 67108864 < 1 := by norm_num
    linarith
  refine ⟨hlen, hnn, hs, rfl, ?_⟩
  rw [List.forall₂_map_right_iff, List.forall₂_same]
  intro u hu
  have hur := R.uniform_range s size u hu
  rw [searchRight_div hs]
  have := searchRight_share (p := p) (acc := 0) (v := u * p.sum) (mul_nonneg hur.1 hs.le) (by
    rw [zero_add]
    have := mul_lt_mul_of_pos_right hur.2 hs
    linarith)
  rw [zero_add, zero_add] at this
  exact ⟨(div_le_iff₀ hs).2 this.1, (lt_div_iff₀ hs).2 this.2⟩

theorem sum_map_div (l : List Rat) (c : Rat) : (l.map (· / c)).sum = l.sum / c := by
  induction l with
  | nil => simp
  | cons x xs ih => rw [List.map_cons, List.sum_cons, List.sum_cons, ih, add_div]

theorem share_div {ws : List Rat} {c : Rat} (hc : c ≠ 0) {i : Nat} {u : Rat} :
    Share (ws.map (· / c)) i u ↔ Share ws i u := by
  rw [Share, Share, ← List.map_take, ← List.map_take, sum_map_div, sum_map_div, sum_map_div,
    div_div_div_cancel_right₀ hc, div_div_div_cancel_right₀ hc]

theorem mapM_get_weighed {d : Dict Val Rat} {l : List (Val × Rat)} {ws : List Rat}
    (h : (l.map Prod.fst).mapM d.get = (.ok ws : Py (List Rat))) : ws = l.map (weighed (some d)) := by
  rw [mapM_ok_iff] at h
  induction l generalizing ws with
  | nil => cases h; rfl
  | cons x xs ih =>
    cases h with
    | cons h1 h2 =>
      rw [List.map_cons, ← ih h2]
      rw [Dict.get] at h1
      cases hx : Dict.get? d x.1 with
      | none => rw [hx] at h1; cases h1
      | some v => rw [hx] at h1; cases h1; rw [weighed, hx]; rfl

/-- one pick, from relations laid out as pairs -/
theorem pick_one_share (R : Rng σ) {s s' : σ} {rs : Relations} {ow : Option (Dict Val Rat)}
    (hl : rs.tos.length = rs.weights.length) {p : Option (Nat × Val)}
    (h : Relations.pick_one R s rs ow = .ok (p, s')) :
    (rs.tos = [] ∧ p = none ∧ s' = s) ∨
    (∃ t, rs.tos = [t] ∧ p = some (0, t) ∧ s' = s) ∨
    ∃ i t, 2 ≤ rs.tos.length ∧ p = some (i, t) ∧ rs.tos[i]? = some t ∧ s' = advance R s ∧
      Share ((rs.tos.zip rs.weights).map (weighed ow)) i (nextNumber R s) := by
  rw [Relations.pick_one.eq_def] at h
  split at h
  · left; cases h; exact ⟨‹_›, rfl, rfl⟩
  · right; left; cases h
    rename_i t ht
    exact ⟨t, ht, rfl, rfl⟩
  · rename_i hn1 hn2
    right; right
    simp only [bind_eq_ok] at h
    obtain ⟨ws, hws, p', hp', ⟨idx, s1⟩, hidx, h⟩ := h
    obtain ⟨hlen, hnn, hs, rfl, hsh⟩ := choiceP_shares R hidx
    have hu := R.uniform_length s 1
    obtain ⟨u, hus⟩ := List.length_eq_one_iff.1 hu
    rw [hus] at hsh
    cases hsh with
    | cons h1 h2 =>
      cases h2
      rename_i i
      simp only at h
      cases ht : rs.tos[i]? with
      | none => rw [ht] at h; cases h
      | some t =>
        rw [ht] at h
        cases h
        have hnum : nextNumber R s = u := by rw [nextNumber, hus]; rfl
        have hw : ws = (rs.tos.zip rs.weights).map (weighed ow) := by
          cases ow with
          | none =>
            rw [Relations.pickWeights] at hws
            cases hws
            show rs.weights = (rs.tos.zip rs.weights).map Prod.snd
            rw [List.map_snd_zip hl.ge]
          | some d =>
            rw [Relations.pickWeights] at hws
            apply mapM_get_weighed
            rw [List.map_fst_zip hl.le]
            exact hws
        rw [Relations.normed] at hp'
        split at hp'
        · cases hp'
        rename_i h0
        cases hp'
        refine ⟨i, t, ?_, rfl, ht, rfl, ?_⟩
        · rcases htos : rs.tos with _ | ⟨a, _ | ⟨b, l⟩⟩
          · exact absurd htos hn1
          · exact absurd htos (hn2 a)
          · simp
        · rw [← hw, hnum]
          exact (share_div h0).1 h1

theorem relationsOf_get_relations {r : Relationship σ} (env : Orders) (f : Val) :
    relationsOf (r.get_relations env) f = pairsAt r.grouped f := by
  have := get_relations_none_rowsOf env r f
  rw [rowsOf] at this
  rw [relationsOf, this, List.map_map]
  simp

theorem selectResults_picks (R : Rng σ) {r : Relationship σ} (hg : GWF r.grouped) (env : Orders)
    {discard : Bool} {ow : Option (Dict Val Rat)} :
    ∀ {reqs : List (Val × Val)} {s s' : σ} {rows : List OneRow},
    Relationship.selectResults R r.grouped discard ow s reqs = .ok (rows, s') →
    Picks R (r.get_relations env) discard ow s reqs rows s' := by
  intro reqs
  induction reqs with
  | nil =>
    intro s s' rows h
    cases h
    exact .nil s
  | cons q reqs ih =>
    obtain ⟨label, f⟩ := q
    intro s s' rows h
    rw [Relationship.selectResults] at h
    simp only [bind_eq_ok] at h
    obtain ⟨⟨row, s1⟩, h1, ⟨rest, s2⟩, h2, h3⟩ := h
    cases h3
    have hrest := ih h2
    have hrel := relationsOf_get_relations (r := r) env f
    rw [Relationship.selectRow] at h1
    cases hf : r.grouped.get? f with
    | none =>
      rw [hf] at h1
      cases h1
      have : pairsAt r.grouped f = [] := by rw [pairsAt, hf]
      rw [this] at hrel
      have := Picks.absent (label := label) (ow := ow) (discard := discard) hrel hrest
      cases discard <;> exact this
    | some rs =>
      rw [hf] at h1
      simp only [bind_eq_ok] at h1
      obtain ⟨⟨p, s3⟩, hp, h1⟩ := h1
      have hl := hg.len f rs hf
      have hpairs : pairsAt r.grouped f = rs.tos.zip rs.weights := by rw [pairsAt, hf]
      rw [hpairs] at hrel
      rcases pick_one_share R hl hp with ⟨e1, rfl, rfl⟩ | ⟨t, e1, rfl, rfl⟩ |
        ⟨i, t, e1, rfl, e2, rfl, e3⟩
      · cases h1
        rw [e1] at hrel
        have := Picks.absent (label := label) (ow := ow) (discard := discard) hrel hrest
        cases discard <;> exact this
      · cases h1
        have hw : rs.weights.length = 1 := by rw [← hl, e1]; rfl
        obtain ⟨w, hw⟩ := List.length_eq_one_iff.1 hw
        rw [e1, hw] at hrel
        exact Picks.only hrel hrest
      · cases h1
        have hi : i < rs.weights.length := by
          rw [← hl]
          exact (List.getElem?_eq_some_iff.1 e2).1
        refine Picks.drawn (i := i) (w := rs.weights[i]) ?_ ?_ ?_ hrest
        · rw [hrel, List.length_zip, ← hl, min_self]
          exact e1
        · rw [hrel, List.getElem?_zip_eq_some]
          exact ⟨e2, List.getElem?_eq_getElem hi⟩
        · rw [hrel]
          exact e3

end Trumania
