import Verif.Proofs.Relationship
import Verif.Proofs.Choice

/-! Helper lemmas: `pick_one`, `select_one` and removal of the picked relations. -/

namespace Trumania

variable {σ : Type} (R : Rng σ)

/-! ### `uniq` -/

theorem mem_uniq {l : List Val} {a : Val} : a ∈ uniq l ↔ a ∈ l := by
  induction l with
  | nil => simp [uniq]
  | cons b l ih =>
    simp only [uniq, List.mem_cons, List.mem_filter, ih, decide_eq_true_eq]
    by_cases h : a = b <;> simp [h]

theorem uniq_nodup (l : List Val) : (uniq l).Nodup := by
  induction l with
  | nil => simp [uniq]
  | cons b l ih =>
    rw [uniq, List.nodup_cons]
    exact ⟨by simp, ih.filter _⟩

theorem uniq_eq_self {l : List Val} (h : l.Nodup) : uniq l = l := by
  induction l with
  | nil => rfl
  | cons b l ih =>
    rw [List.nodup_cons] at h
    rw [uniq, ih h.2, List.filter_eq_self.2]
    intro a ha
    simp only [decide_eq_true_eq]
    rintro rfl; exact h.1 ha

/-! ### `pick_one` -/

/-- the weight used for a position: the overridden one if any -/
def effWeight (rs : Relations) (ow : Option (Dict Val Rat)) (i : Nat) : Option Rat :=
  match ow with
  | none => rs.weights[i]?
  | some d => rs.tos[i]?.bind d.get?

theorem mapM_get {d : Dict Val Rat} {tos : List Val} {ws : List Rat}
    (h : tos.mapM d.get = .ok ws) (i : Nat) : ws[i]? = tos[i]?.bind d.get? := by
  rw [mapM_ok_iff] at h
  induction h generalizing i with
  | nil => simp
  | cons hab _ ih =>
    cases i with
    | zero =>
      simp only [List.getElem?_cons_zero, Option.bind_some]
      rw [Dict.get] at hab
      split at hab <;> cases hab
      simp [*]
    | succ i => simpa using ih i

theorem mapM_get_isOk {d : Dict Val Rat} {tos : List Val} (h : ∀ t ∈ tos, t ∈ d.keys) :
    ∃ ws, tos.mapM d.get = .ok ws := by
  induction tos with
  | nil => exact ⟨[], rfl⟩
  | cons t tos ih =>
    obtain ⟨ws, hws⟩ := ih (fun t ht => h t (by simp [ht]))
    obtain ⟨w, hw⟩ := Dict.exists_get?_of_mem_keys (h t (by simp))
    refine ⟨w :: ws, ?_⟩
    rw [List.mapM_cons, hws, Dict.get, hw]; rfl

theorem pick_one_ok {s s' : σ} {rs : Relations} {ow : Option (Dict Val Rat)}
    {p : Option (Nat × Val)} (h : Relations.pick_one R s rs ow = .ok (p, s')) :
    (p = none ∧ rs.tos = []) ∨
    ∃ i t, p = some (i, t) ∧ rs.tos[i]? = some t ∧
      (2 ≤ rs.tos.length → ∃ w, effWeight rs ow i = some w ∧ w ≠ 0) := by
  rw [Relations.pick_one.eq_def] at h
  split at h
  · left; cases h; exact ⟨rfl, ‹_›⟩
  · right; cases h
    rename_i t ht
    exact ⟨0, t, rfl, by simp [ht], by simp [ht]⟩
  · right
    simp only [bind_eq_ok] at h
    obtain ⟨ws, hws, p', hp', ⟨idx, s1⟩, hidx, h⟩ := h
    obtain ⟨-, hlen, -, hpos⟩ := R.choiceP_ok hidx
    cases idx with
    | nil => simp at hlen
    | cons i is =>
      obtain ⟨x, hx, hx0⟩ := hpos i (by simp)
      simp only at h
      cases ht : rs.tos[i]? with
      | none => rw [ht] at h; cases h
      | some t =>
        rw [ht] at h
        cases h
        refine ⟨i, t, rfl, ht, fun _ => ?_⟩
        rw [Relations.normed] at hp'
        split at hp'
        · cases hp'
        · cases hp'
          rw [List.getElem?_map, Option.map_eq_some_iff] at hx
          obtain ⟨w, hw, rfl⟩ := hx
          refine ⟨w, ?_, ?_⟩
          · cases ow with
            | none => rw [Relations.pickWeights] at hws; cases hws; exact hw
            | some d => rw [effWeight, ← mapM_get hws, hw]
          · rintro rfl; simp at hx0

theorem normed_spec {ws : List Rat} (h0 : ∀ x ∈ ws, 0 ≤ x) (hs : 0 < ws.sum) :
    ∃ p, Relations.normed ws = .ok p ∧ p.length = ws.length ∧ (∀ x ∈ p, 0 ≤ x) ∧ p.sum = 1 := by
  refine ⟨ws.map (· / ws.sum), ?_, by simp, ?_, ?_⟩
  · rw [Relations.normed, if_neg hs.ne']
  · intro x hx
    obtain ⟨y, hy, rfl⟩ := List.mem_map.1 hx
    exact div_nonneg (h0 y hy) hs.le
  · have : ∀ (l : List Rat) (c : Rat), (l.map (· / c)).sum = l.sum / c := by
      intro l c
      induction l with
      | nil => simp
      | cons x xs ih => simp [ih, add_div]
    rw [this, div_self hs.ne']

/-- `pick_one` never raises when the weights it uses are positive -/
theorem pick_one_isOk {s : σ} {rs : Relations} {ow : Option (Dict Val Rat)} {ws : List Rat}
    (hl : rs.tos.length = rs.weights.length)
    (hws : rs.pickWeights ow = .ok ws)
    (h0 : ∀ x ∈ ws, 0 ≤ x) (hs : ws ≠ [] → 0 < ws.sum) :
    ∃ r, Relations.pick_one R s rs ow = .ok r := by
  rw [Relations.pick_one.eq_def]
  split
  · exact ⟨_, rfl⟩
  · exact ⟨_, rfl⟩
  · rename_i h1 h2
    have hlen : ws.length = rs.tos.length := by
      cases ow with
      | none => rw [Relations.pickWeights] at hws; cases hws; exact hl.symm
      | some d => rw [Relations.pickWeights, mapM_ok_iff] at hws; exact hws.length_eq.symm
    have hne : rs.tos.length ≠ 0 := by
      intro h; exact h1 (List.length_eq_zero_iff.1 h)
    have hs' := hs (by intro h; rw [h] at hlen; simp at hlen; exact h1 (by simpa using hlen.symm))
    obtain ⟨p, hp, hpl, hp0, hp1⟩ := normed_spec h0 hs'
    obtain ⟨⟨is, s'⟩, hr⟩ := R.choiceP_isOk (s := s) (size := 1) hne (by rw [hpl, hlen]) hp0 hp1
    obtain ⟨-, hil, -, hpos⟩ := R.choiceP_ok hr
    cases is with
    | nil => simp at hil
    | cons i is =>
      obtain ⟨x, hx, -⟩ := hpos i (by simp)
      have hi : i < rs.tos.length := by
        have := (List.getElem?_eq_some_iff.1 hx).1
        omega
      refine ⟨(some (i, rs.tos[i]), s'), ?_⟩
      rw [hws, bind_ok, hp, bind_ok, hr, bind_ok]
      simp [List.getElem?_eq_getElem hi]

/-! ### `selectResults` -/

/-- outcome of one request of `select_one` -/
inductive PickOutcome (g : Dict Val Relations) (discard : Bool) (ow : Option (Dict Val Rat)) :
    Val × Val → Option OneRow → Prop
  | hit {l f : Val} {rs : Relations} {i : Nat} {t : Val} (hg : g.get? f = some rs)
      (ht : rs.tos[i]? = some t)
      (hw : 2 ≤ rs.tos.length → ∃ w, effWeight rs ow i = some w ∧ w ≠ 0) :
      PickOutcome g discard ow (l, f) (some ⟨l, f, some i, some t⟩)
  | blank {l f : Val} (hd : discard = false) (hf : ∀ rs, g.get? f = some rs → rs.tos = []) :
      PickOutcome g discard ow (l, f) (some ⟨l, f, none, none⟩)
  | skip {l f : Val} (hd : discard = true) (hf : ∀ rs, g.get? f = some rs → rs.tos = []) :
      PickOutcome g discard ow (l, f) none

theorem selectRow_ok {g : Dict Val Relations} {discard : Bool} {ow : Option (Dict Val Rat)}
    {l f : Val} {s s' : σ} {row : Option OneRow}
    (h : Relationship.selectRow R g discard ow s l f = .ok (row, s')) :
    PickOutcome g discard ow (l, f) row := by
  rw [Relationship.selectRow.eq_def] at h
  have hbl : (∀ rs, g.get? f = some rs → rs.tos = []) → PickOutcome g discard ow (l, f)
      (if discard = true then none else some ⟨l, f, none, none⟩) := by
    intro hf
    cases discard with
    | true => exact PickOutcome.skip rfl hf
    | false => exact PickOutcome.blank rfl hf
  cases hf : g.get? f with
  | none =>
    rw [hf] at h
    simp only [Except.ok.injEq, Prod.mk.injEq] at h
    rw [← h.1]
    exact hbl (by simp [hf])
  | some rs =>
    rw [hf] at h
    obtain ⟨⟨p, s3⟩, hp, h⟩ := bind_eq_ok.1 h
    rcases pick_one_ok R hp with ⟨rfl, hnil⟩ | ⟨i, t, rfl, ht, hw⟩
    · simp only [Except.ok.injEq, Prod.mk.injEq] at h
      rw [← h.1]
      exact hbl (by intro rs' h; rw [hf] at h; cases h; exact hnil)
    · simp only [Except.ok.injEq, Prod.mk.injEq] at h
      rw [← h.1]
      exact PickOutcome.hit hf ht hw

theorem selectResults_ok {g : Dict Val Relations} {discard : Bool} {ow : Option (Dict Val Rat)}
    {reqs : List (Val × Val)} {s s' : σ} {rows : List OneRow}
    (h : Relationship.selectResults R g discard ow s reqs = .ok (rows, s')) :
    ∃ outs, List.Forall₂ (PickOutcome g discard ow) reqs outs ∧ rows = outs.filterMap id := by
  induction reqs generalizing s rows with
  | nil =>
    rw [Relationship.selectResults] at h
    cases h
    exact ⟨[], List.Forall₂.nil, rfl⟩
  | cons q reqs ih =>
    obtain ⟨l, f⟩ := q
    rw [Relationship.selectResults] at h
    obtain ⟨⟨row, s1⟩, hrow, h⟩ := bind_eq_ok.1 h
    obtain ⟨⟨rows', s2⟩, hrows, h⟩ := bind_eq_ok.1 h
    cases h
    obtain ⟨outs, houts, rfl⟩ := ih hrows
    refine ⟨row :: outs, List.Forall₂.cons ?_ houts, ?_⟩
    · exact selectRow_ok R hrow
    · cases row <;> simp

theorem selectResults_isOk {g : Dict Val Relations} {discard : Bool} {ow : Option (Dict Val Rat)}
    (reqs : List (Val × Val)) (s : σ)
    (h : ∀ q ∈ reqs, ∀ rs, g.get? q.2 = some rs → ∀ s, ∃ r, Relations.pick_one R s rs ow = .ok r) :
    ∃ r, Relationship.selectResults R g discard ow s reqs = .ok r := by
  induction reqs generalizing s with
  | nil => exact ⟨_, rfl⟩
  | cons q reqs ih =>
    obtain ⟨l, f⟩ := q
    have ih' := fun s => ih s (fun q hq => h q (by simp [hq]))
    obtain ⟨⟨row, s1⟩, hrow⟩ : ∃ x, Relationship.selectRow R g discard ow s l f = .ok x := by
      rw [Relationship.selectRow.eq_def]
      cases hf : g.get? f with
      | none => exact ⟨_, rfl⟩
      | some rs =>
        obtain ⟨⟨p, s1⟩, hp⟩ := h (l, f) (by simp) rs hf s
        simp only [hp, bind_ok]
        cases p <;> exact ⟨_, rfl⟩
    obtain ⟨⟨rows, s2⟩, hr⟩ := ih' s1
    simp only [Relationship.selectResults, hrow, bind_ok, hr]
    exact ⟨_, rfl⟩

/-! ### one-to-one -/

open Relationship

theorem dropDups_spec (seen : List (Option Val)) (rows : List OneRow) :
    (dropDups seen rows).Sublist rows ∧ ((dropDups seen rows).map (·.to_)).Nodup ∧
    (∀ o ∈ seen, o ∉ (dropDups seen rows).map (·.to_)) ∧
    (∀ o, o ∈ rows.map (·.to_) → o ∉ seen → o ∈ (dropDups seen rows).map (·.to_)) := by
  induction rows generalizing seen with
  | nil => simp [dropDups]
  | cons r rows ih =>
    rw [dropDups]
    split
    · rename_i hr
      obtain ⟨h1, h2, h3, h4⟩ := ih seen
      refine ⟨h1.cons _, h2, h3, ?_⟩
      intro o ho hs
      rw [List.map_cons, List.mem_cons] at ho
      rcases ho with rfl | ho
      · exact absurd hr hs
      · exact h4 o ho hs
    · rename_i hr
      obtain ⟨h1, h2, h3, h4⟩ := ih (r.to_ :: seen)
      refine ⟨h1.cons_cons _, ?_, ?_, ?_⟩
      · rw [List.map_cons, List.nodup_cons]
        exact ⟨h3 _ (by simp), h2⟩
      · intro o ho
        rw [List.map_cons, List.mem_cons, not_or]
        refine ⟨?_, h3 o (by simp [ho])⟩
        rintro rfl; exact hr ho
      · intro o ho hs
        rw [List.map_cons, List.mem_cons] at ho ⊢
        by_cases he : o = r.to_
        · exact Or.inl he
        · right
          exact h4 o (ho.resolve_left he) (by simp [he, hs])

theorem permutation_perm {α : Type} (s : σ) (xs : List α) : (R.permutation s xs).1.Perm xs :=
  picked_perm (R.perm_perm s xs.length)

theorem mem_oneToOne_present {s : σ} {rows : List OneRow} {r : OneRow} :
    r ∈ (R.permutation s ((rows.filter (fun r => !r.to_.isNone)).map (·.label))).1.flatMap
      (fun l => (rows.filter (fun r => !r.to_.isNone)).filter (fun r => decide (r.label = l))) ↔
    r ∈ rows ∧ r.to_ ≠ none := by
  rw [List.mem_flatMap]
  constructor
  · rintro ⟨l, -, h⟩
    rw [List.mem_filter, List.mem_filter] at h
    refine ⟨h.1.1, ?_⟩
    intro hn; simp [hn] at h
  · rintro ⟨h1, h2⟩
    have hm : r ∈ rows.filter (fun r => !r.to_.isNone) := by
      rw [List.mem_filter]; refine ⟨h1, ?_⟩
      cases h : r.to_ with
      | none => exact absurd h h2
      | some _ => rfl
    refine ⟨r.label, ?_, by rw [List.mem_filter]; exact ⟨hm, by simp⟩⟩
    rw [(permutation_perm R s _).mem_iff]
    exact List.mem_map.2 ⟨r, hm, rfl⟩

/-- what one-to-one keeps: some rows with a `to`, no two with the same, each picked `to` being kept,
followed by all the blank rows -/
theorem oneToOne_spec (s : σ) (rows : List OneRow) :
    ∃ present, (oneToOne R s rows).1 = present ++ rows.filter (fun r => r.to_.isNone) ∧
      (present.map (·.to_)).Nodup ∧ (∀ r ∈ present, r ∈ rows ∧ r.to_ ≠ none) ∧
      (∀ r ∈ rows, r.to_ ≠ none → r.to_ ∈ present.map (·.to_)) := by
  refine ⟨_, rfl, ?_, ?_, ?_⟩
  · exact (dropDups_spec [] _).2.1
  · intro r hr
    have := (dropDups_spec [] _).1.subset hr
    exact (mem_oneToOne_present R).1 this
  · intro r hr hn
    apply (dropDups_spec [] _).2.2.2 _ _ (by simp)
    rw [List.mem_map]
    exact ⟨r, (mem_oneToOne_present R).2 ⟨hr, hn⟩, rfl⟩

/-! ### removal -/

/-- positions to delete for a from -/
def groupAt (groups : List (Val × List Nat)) (f : Val) : List Nat :=
  (groups.filter (fun x => decide (x.1 = f))).flatMap Prod.snd

theorem kept_nil {α : Type} (xs : List α) : kept xs [] = xs := by
  rw [kept]; simp [List.zipIdx_map_fst]

theorem pairsAt_of_get? {g : Dict Val Relations} {f : Val} {rs : Relations}
    (h : g.get? f = some rs) : pairsAt g f = rs.tos.zip rs.weights := by rw [pairsAt, h]

theorem pairsAt_of_none {g : Dict Val Relations} {f : Val}
    (h : g.get? f = none) : pairsAt g f = [] := by rw [pairsAt, h]

theorem removeGroups_spec {g : Dict Val Relations} (hg : GWF g) {groups : List (Val × List Nat)}
    (hn : (groups.map Prod.fst).Nodup)
    (hk : ∀ x ∈ groups, ∃ rs, g.get? x.1 = some rs ∧ ∀ i ∈ x.2, i < rs.tos.length) :
    ∃ g', removeGroups g groups = .ok g' ∧ GWF g' ∧
      (∀ f, pairsAt g' f = kept (pairsAt g f) (groupAt groups f)) ∧
      (∀ f, f ∈ g'.keys → f ∈ g.keys) ∧
      (∀ f, f ∈ groups.map Prod.fst → pairsAt g' f = [] → f ∉ g'.keys) ∧
      (∀ f, f ∉ groups.map Prod.fst → g'.get? f = g.get? f) := by
  induction groups generalizing g with
  | nil =>
    refine ⟨g, rfl, hg, ?_, fun f h => h, by simp, fun _ _ => rfl⟩
    intro f
    rw [groupAt]; simp [kept_nil]
  | cons x groups ih =>
    obtain ⟨f0, is⟩ := x
    rw [List.map_cons, List.nodup_cons] at hn
    obtain ⟨rs, hrs, hlt⟩ := hk (f0, is) (by simp)
    simp only at hrs hlt
    have hlen := hg.len f0 rs hrs
    obtain ⟨hd1, hd2⟩ := npDelete_pair hlen hlt
    set K := kept (rs.tos.zip rs.weights) is with hK
    set rs' : Relations := ⟨K.map Prod.fst, K.map Prod.snd⟩ with hrs'
    have hrem : rs.remove_inplace is = .ok rs' := by
      rw [Relations.remove_inplace, hd1, hd2]; rfl
    set g1 := if rs'.size = 0 then g.del f0 else g.set f0 rs' with hg1
    have hget : ∀ f, g1.get? f = if f0 = f then (if rs'.size = 0 then none else some rs')
        else g.get? f := by
      intro f
      rw [hg1]
      by_cases hz : rs'.size = 0
      · simp only [hz, if_true]; rw [Dict.get?_del hg.wf]
      · simp only [hz, if_false]; rw [Dict.get?_set]
    have hg1wf : GWF g1 := by
      refine ⟨?_, ?_⟩
      · rw [hg1]; split
        · exact hg.wf.del _
        · exact hg.wf.set _ _
      · intro f q hq
        rw [hget] at hq
        split at hq
        · split at hq
          · cases hq
          · cases hq; simp [hrs']
        · exact hg.len f q hq
    have hk1 : ∀ x ∈ groups, ∃ rs, g1.get? x.1 = some rs ∧ ∀ i ∈ x.2, i < rs.tos.length := by
      intro x hx
      obtain ⟨q, hq, hq2⟩ := hk x (by simp [hx])
      refine ⟨q, ?_, hq2⟩
      rw [hget, if_neg, hq]
      rintro rfl
      exact hn.1 (List.mem_map.2 ⟨x, hx, rfl⟩)
    obtain ⟨g', h1, h2, h3, h4, h5, h6⟩ := ih hg1wf hn.2 hk1
    have hpk : ∀ f, f0 ≠ f → pairsAt g1 f = pairsAt g f := by
      intro f hf; rw [pairsAt, pairsAt, hget, if_neg hf]
    have hpk0 : pairsAt g1 f0 = K := by
      rw [pairsAt, hget, if_pos rfl]
      by_cases hz : rs'.size = 0
      · simp only [hz, if_true]
        simp only [Relations.size, hrs', List.length_map, List.length_eq_zero_iff] at hz
        exact hz.symm
      · simp only [hz, if_false]; exact zip_fst_snd K
    have hga0 : groupAt groups f0 = [] := by
      rw [groupAt, List.filter_eq_nil_iff.2]
      · rfl
      · intro y hy; simp only [decide_eq_true_eq]
        rintro rfl; exact hn.1 (List.mem_map.2 ⟨y, hy, rfl⟩)
    refine ⟨g', ?_, h2, ?_, ?_, ?_, ?_⟩
    · rw [removeGroups, Dict.get, hrs]
      show (rs.remove_inplace is >>= _) = _
      rw [hrem, bind_ok]; exact h1
    · intro f
      rw [h3]
      by_cases hf : f0 = f
      · subst hf
        rw [hga0, kept_nil, hpk0, pairsAt_of_get? hrs, hK]
        congr 1
        simp only [groupAt, List.filter_cons, decide_true, if_true, List.flatMap_cons]
        rw [← groupAt, hga0, List.append_nil]
      · rw [hpk f hf]
        congr 1
        simp [groupAt, hf]
    · intro f hf
      have := h4 f hf
      by_cases he : f0 = f
      · subst he; exact Dict.mem_keys_of_get? hrs
      · rw [← Dict.get?_isSome_iff, hget, if_neg he, Dict.get?_isSome_iff] at this
        exact this
    · intro f hf hp
      rw [List.map_cons, List.mem_cons] at hf
      by_cases he : f0 = f
      · subst he
        intro hc
        have := h4 _ hc
        rw [← Dict.get?_isSome_iff, hget, if_pos rfl] at this
        rw [h3, hga0, kept_nil, hpk0] at hp
        simp [Relations.size, hrs', hp] at this
      · exact h5 f (hf.resolve_left (fun e => he e.symm)) hp
    · intro f hf
      rw [List.map_cons, List.mem_cons, not_or] at hf
      rw [h6 f hf.2, hget, if_neg (fun e => hf.1 e.symm)]

/-! ### `select_one` -/

/-- (from, position) of the picked rows -/
def hits (rows : List OneRow) : List (Val × Nat) :=
  rows.filterMap fun r => r.idx.map fun i => (r.from_, i)

theorem groupAt_groups {α : Type} (l : List (Val × α)) (F : Val → List Nat)
    (hF : ∀ f, f ∉ l.map Prod.fst → F f = []) (f : Val) :
    groupAt ((uniq (l.map Prod.fst)).map fun f => (f, F f)) f = F f := by
  have key : ∀ ks : List Val, ks.Nodup →
      groupAt (ks.map fun f => (f, F f)) f = if f ∈ ks then F f else [] := by
    intro ks hn
    induction ks with
    | nil => rfl
    | cons k ks ih =>
      rw [List.nodup_cons] at hn
      have ih' := ih hn.2
      rw [groupAt] at ih' ⊢
      rw [List.map_cons, List.filter_cons]
      by_cases hk : k = f
      · subst hk
        simp only [decide_true, if_true, List.flatMap_cons, ih', if_neg hn.1]
        simp
      · have hk' : f ≠ k := fun e => hk e.symm
        simp only [hk, decide_false, Bool.false_eq_true, if_false, ih', List.mem_cons, hk', false_or]
  rw [key _ (uniq_nodup _)]
  split
  · rfl
  · rename_i h
    rw [mem_uniq] at h
    exact (hF f h).symm

theorem groupAt_oneGroups (rows : List OneRow) (f : Val) :
    groupAt (oneGroups rows) f = (rowsOf f (hits rows)).map Prod.snd := by
  rw [oneGroups]
  apply groupAt_groups (l := hits rows)
    (F := fun f => (rowsOf f (hits rows)).map Prod.snd)
  intro f hf
  simp only [List.map_eq_nil_iff]
  rw [rowsOf, List.filter_eq_nil_iff]
  intro x hx
  simp only [decide_eq_true_eq]
  rintro rfl
  exact hf (List.mem_map.2 ⟨x, hx, rfl⟩)

theorem oneGroups_keys (rows : List OneRow) :
    (oneGroups rows).map Prod.fst = uniq ((hits rows).map Prod.fst) := by
  rw [oneGroups, List.map_map]
  simp only [Function.comp_def, List.map_id']
  rfl

/-- rows produced by `select_one` -/
inductive RowOk (g : Dict Val Relations) (ow : Option (Dict Val Rat)) : OneRow → Prop
  | hit {l f : Val} {rs : Relations} {i : Nat} {t : Val} (hg : g.get? f = some rs)
      (ht : rs.tos[i]? = some t)
      (hw : 2 ≤ rs.tos.length → ∃ w, effWeight rs ow i = some w ∧ w ≠ 0) :
      RowOk g ow ⟨l, f, some i, some t⟩
  | blank {l f : Val} (hf : ∀ rs, g.get? f = some rs → rs.tos = []) :
      RowOk g ow ⟨l, f, none, none⟩

theorem rowOk_of_outs {g : Dict Val Relations} {discard : Bool} {ow : Option (Dict Val Rat)}
    {reqs : List (Val × Val)} {outs : List (Option OneRow)}
    (h : List.Forall₂ (PickOutcome g discard ow) reqs outs) :
    ∀ row ∈ outs.filterMap id, RowOk g ow row := by
  intro row hrow
  rw [List.mem_filterMap] at hrow
  obtain ⟨o, ho, he⟩ := hrow
  simp only [id] at he
  subst he
  obtain ⟨q, -, hq⟩ := forall₂_exists_left h ho
  cases hq with
  | hit hg ht hw => exact RowOk.hit hg ht hw
  | blank _ hf => exact RowOk.blank hf

theorem oneToOne_nil (s : σ) : (oneToOne R s []).1 = [] := by
  obtain ⟨present, h1, -, h2, -⟩ := oneToOne_spec R s []
  rw [h1]
  cases present with
  | nil => rfl
  | cons a l => exact absurd (h2 a (by simp)).1 (by simp)

theorem mem_of_mem_oneToOne {s : σ} {rows : List OneRow} {r : OneRow}
    (h : r ∈ (oneToOne R s rows).1) : r ∈ rows := by
  obtain ⟨present, h1, -, h2, -⟩ := oneToOne_spec R s rows
  rw [h1, List.mem_append] at h
  rcases h with h | h
  · exact (h2 r h).1
  · exact (List.mem_filter.1 h).1

theorem hits_mem {g : Dict Val Relations} {ow : Option (Dict Val Rat)} {rows : List OneRow}
    (h : ∀ r ∈ rows, RowOk g ow r) {x : Val × Nat} (hx : x ∈ hits rows) :
    ∃ rs, g.get? x.1 = some rs ∧ x.2 < rs.tos.length := by
  rw [hits, List.mem_filterMap] at hx
  obtain ⟨r, hr, he⟩ := hx
  cases h r hr with
  | blank => simp at he
  | hit hg ht _ =>
    simp only [Option.map_some, Option.some.injEq] at he
    subst he
    exact ⟨_, hg, (List.getElem?_eq_some_iff.1 ht).1⟩

/-- what `select_one` does, as a relation between the states before and after -/
structure SelectSpec (r r' : Relationship σ) (reqs : List (Val × Val)) (remove discard o2o : Bool)
    (ow : Option (Dict Val Rat)) (rows : List OneRow) (outs : List (Option OneRow)) : Prop where
  outs_ok : List.Forall₂ (PickOutcome r.grouped discard ow) reqs outs
  rows_eq : (o2o = false ∧ rows = outs.filterMap id) ∨
    (o2o = true ∧ ∃ s, rows = (oneToOne R s (outs.filterMap id)).1)
  rows_ok : ∀ row ∈ rows, RowOk r.grouped ow row
  seed_eq : r'.seed = r.seed
  gwf : GWF r'.grouped
  pairs : ∀ f, pairsAt r'.grouped f =
    if remove then kept (pairsAt r.grouped f) ((rowsOf f (hits rows)).map Prod.snd)
    else pairsAt r.grouped f
  keys_sub : ∀ f, f ∈ r'.grouped.keys → f ∈ r.grouped.keys
  emptied : remove = true → ∀ row ∈ rows, row.idx ≠ none → pairsAt r'.grouped row.from_ = [] →
    row.from_ ∉ r'.grouped.keys
  keep : remove = false → r'.grouped = r.grouped

theorem select_one_ok {r r' : Relationship σ} (hg : GWF r.grouped)
    {reqs : Option (List (Val × Val))} {remove discard o2o : Bool}
    {ow : Option (Dict Val Rat)} {rows : List OneRow}
    (h : r.select_one R reqs remove discard o2o ow = .ok (rows, r')) :
    r.missingKeys ow = [] ∧
    ∃ outs, SelectSpec R r r' (r.requests reqs) remove discard o2o ow rows outs := by
  rw [select_one] at h
  split at h
  · cases h
  rename_i hm
  refine ⟨by simpa using hm, ?_⟩
  obtain ⟨⟨out, s⟩, ho, h⟩ := bind_eq_ok.1 h
  obtain ⟨outs, houts, rfl⟩ := selectResults_ok R ho
  have hok := rowOk_of_outs houts
  refine ⟨outs, ?_⟩
  simp only at h
  by_cases he : outs.filterMap id = []
  · rw [if_pos he] at h
    cases h
    refine ⟨houts, ?_, by simp, rfl, hg, ?_, fun f h => h, by simp, fun _ => rfl⟩
    · cases o2o with
      | false => exact Or.inl ⟨rfl, he.symm⟩
      | true => exact Or.inr ⟨rfl, s, by rw [he, oneToOne_nil]⟩
    · intro f; simp [hits, kept_nil]
  · rw [if_neg he] at h
    -- rows after the one-to-one filter
    obtain ⟨rows1, s1, hrows1, hor⟩ : ∃ rows1 s1, (if o2o = true then
        oneToOne R s (outs.filterMap id) else (outs.filterMap id, s)) = (rows1, s1) ∧
        ((o2o = false ∧ rows1 = outs.filterMap id) ∨
          (o2o = true ∧ ∃ s, rows1 = (oneToOne R s (outs.filterMap id)).1)) := by
      cases o2o with
      | false => exact ⟨_, _, rfl, Or.inl ⟨rfl, rfl⟩⟩
      | true => exact ⟨_, _, rfl, Or.inr ⟨rfl, s, rfl⟩⟩
    rw [hrows1] at h
    simp only at h
    obtain ⟨g, hgr, h⟩ := bind_eq_ok.1 h
    cases h
    have hok1 : ∀ row ∈ rows, RowOk r.grouped ow row := by
      intro row hrow
      apply hok
      rcases hor with ⟨-, rfl⟩ | ⟨-, s, rfl⟩
      · exact hrow
      · exact mem_of_mem_oneToOne R hrow
    set groups := if remove = true then oneGroups rows else [] with hgroups
    have hgn : (groups.map Prod.fst).Nodup := by
      rw [hgroups]; split
      · rw [oneGroups_keys]; exact uniq_nodup _
      · simp
    have hgk : ∀ x ∈ groups, ∃ rs, r.grouped.get? x.1 = some rs ∧
        ∀ i ∈ x.2, i < rs.tos.length := by
      intro x hx
      have hx1 : x ∈ oneGroups rows := by
        rw [hgroups] at hx; split at hx
        · exact hx
        · simp at hx
      have hx2 : x.1 ∈ (hits rows).map Prod.fst := by
        rw [← mem_uniq, ← oneGroups_keys]; exact List.mem_map.2 ⟨x, hx1, rfl⟩
      obtain ⟨y, hy, hye⟩ := List.mem_map.1 hx2
      obtain ⟨rs, hrs, -⟩ := hits_mem hok1 hy
      rw [hye] at hrs
      refine ⟨rs, hrs, ?_⟩
      intro i hi
      rw [oneGroups, List.mem_map] at hx1
      obtain ⟨f, -, rfl⟩ := hx1
      simp only [List.mem_map, List.mem_filter] at hi
      obtain ⟨z, ⟨hz, hzf⟩, rfl⟩ := hi
      obtain ⟨rs', hrs', hlt⟩ := hits_mem hok1 hz
      rw [of_decide_eq_true hzf] at hrs'
      rw [hrs] at hrs'; cases hrs'
      exact hlt
    obtain ⟨g', h1, h2, h3, h4, h5, h6⟩ := removeGroups_spec hg hgn hgk
    rw [h1] at hgr
    cases hgr
    refine ⟨houts, hor, hok1, rfl, h2, ?_, h4, ?_, ?_⟩
    · intro f
      rw [h3, hgroups]
      split
      · rw [groupAt_oneGroups]
      · rw [groupAt]; simp [kept_nil]
    · intro hr row hrow hi hp
      apply h5 _ _ hp
      rw [hgroups, if_pos hr, oneGroups_keys, mem_uniq]
      cases hidx : row.idx with
      | none => exact absurd hidx hi
      | some i =>
        refine List.mem_map.2 ⟨(row.from_, i), ?_, rfl⟩
        rw [hits, List.mem_filterMap]
        exact ⟨row, hrow, by rw [hidx]; rfl⟩
    · intro hr
      rw [hgroups, hr] at h1
      simp only [Bool.false_eq_true, if_false, removeGroups] at h1
      cases h1; rfl

theorem select_one_isOk {r : Relationship σ} (hg : GWF r.grouped)
    {reqs : Option (List (Val × Val))} {remove discard o2o : Bool}
    {ow : Option (Dict Val Rat)} (hm : r.missingKeys ow = [])
    (hp : ∀ q ∈ r.requests reqs, ∀ rs, r.grouped.get? q.2 = some rs → ∀ s,
      ∃ x, Relations.pick_one R s rs ow = .ok x) :
    ∃ x, r.select_one R reqs remove discard o2o ow = .ok x := by
  obtain ⟨⟨out, s⟩, ho⟩ := selectResults_isOk R (discard := discard) _ r.state hp
  obtain ⟨outs, houts, hout⟩ := selectResults_ok R ho
  rw [select_one, if_neg (by simpa using hm), ho, bind_ok]
  simp only
  split
  · exact ⟨_, rfl⟩
  have hok := rowOk_of_outs houts
  rw [← hout] at hok
  obtain ⟨rows, s1, hrows1, hsub⟩ : ∃ rows1 s1, (if o2o = true then
      oneToOne R s out else (out, s)) = (rows1, s1) ∧ ∀ x ∈ rows1, x ∈ out := by
    cases o2o with
    | false => exact ⟨_, _, rfl, fun x h => h⟩
    | true => exact ⟨_, _, rfl, fun x h => mem_of_mem_oneToOne R h⟩
  rw [hrows1]
  have hok1 : ∀ row ∈ rows, RowOk r.grouped ow row := fun row h => hok row (hsub row h)
  suffices hs : ∃ g, removeGroups r.grouped (if remove = true then oneGroups rows else []) = .ok g by
    obtain ⟨g, hgr⟩ := hs
    simp only [hgr, bind_ok]
    exact ⟨_, rfl⟩
  cases remove with
  | false => exact ⟨_, rfl⟩
  | true =>
    have := removeGroups_spec hg (groups := oneGroups rows)
      (by rw [oneGroups_keys]; exact uniq_nodup _) ?_
    · obtain ⟨g', h1, -⟩ := this
      exact ⟨g', h1⟩
    · intro x hx1
      have hx2 : x.1 ∈ (hits rows).map Prod.fst := by
        rw [← mem_uniq, ← oneGroups_keys]; exact List.mem_map.2 ⟨x, hx1, rfl⟩
      obtain ⟨y, hy, hye⟩ := List.mem_map.1 hx2
      obtain ⟨rs, hrs, -⟩ := hits_mem hok1 hy
      rw [hye] at hrs
      refine ⟨rs, hrs, ?_⟩
      intro i hi
      rw [oneGroups, List.mem_map] at hx1
      obtain ⟨f, -, rfl⟩ := hx1
      simp only [List.mem_map, List.mem_filter] at hi
      obtain ⟨z, ⟨hz, hzf⟩, rfl⟩ := hi
      obtain ⟨rs', hrs', hlt⟩ := hits_mem hok1 hz
      rw [of_decide_eq_true hzf] at hrs'
      rw [hrs] at hrs'; cases hrs'
      exact hlt

end Trumania
