import Verif.Props.Relationship

/-!
# Property C29 (seeded selections are repeatable)

A session is any sequence of public calls with explicit from_ids. Its outputs, errors included, do
not depend on the iteration order of Python sets (hence of the internal dictionary), which may
change at each call; only the tie-breaking of `argsort`, a deterministic function, is the same.
-/

namespace Trumania

open Relationship

variable {σ : Type} (R : Rng σ)

/-- a public call on a relationship -/
inductive Spec.Call where
  | add (c : AddCall)
  | remove (froms tos : List Val)
  | selectOne (reqs : List (Val × Val)) (pop discard o2o : Bool) (ow : Option (Dict Val Rat))
  | selectMany (reqs : List (Val × Val × Int)) (pop discard : Bool)
  | sizes (froms : List Val)

/-- what a call returns -/
inductive Spec.Output where
  | none
  | rows (rows : List OneRow)
  | lists (res : List (Val × List Val))
  | sizes (d : Dict Val Nat)
deriving DecidableEq

/-- execution of a call -/
def Spec.Call.exec (r : Relationship σ) (env : Orders) :
    Spec.Call → Py (Spec.Output × Relationship σ)
  | .add c => (AddCall.exec r (c, env)).map fun r' => (.none, r')
  | .remove f t => (r.remove_relations env f t).map fun r' => (.none, r')
  | .selectOne reqs pop discard o2o ow =>
      (r.select_one R (some reqs) pop discard o2o ow).map fun x => (.rows x.1, x.2)
  | .selectMany reqs pop discard =>
      (r.select_many R reqs pop discard).map fun x => (.lists x.1, x.2)
  | .sizes l => .ok (.sizes (r.get_neighbourhood_size l), r)

/-- the outputs of a session, stopping at the first error; `sos` gives the set order of each call -/
def Spec.session (sort : ArgSort) (sos : Nat → SetOrder Val) :
    Nat → Relationship σ → List Spec.Call → List (Py Spec.Output)
  | _, _, [] => []
  | n, r, c :: cs =>
    match c.exec R r ⟨sos n, sort⟩ with
    | .error e => [.error e]
    | .ok (o, r') => .ok o :: session sort sos (n + 1) r' cs

/-- same seed, same generator state, same relations in the same per-from order -/
structure Same (r1 r2 : Relationship σ) : Prop where
  seed : r1.seed = r2.seed
  state : r1.state = r2.state
  get : ∀ f, r1.grouped.get? f = r2.grouped.get? f
  wf1 : GWF r1.grouped
  wf2 : GWF r2.grouped

/-- both sides fail in the same way, or both succeed with related results -/
def SameRes {α : Type} (P : α → α → Prop) (x y : Py α) : Prop :=
  match x, y with
  | .ok a, .ok b => P a b
  | .error e, .error e' => e = e'
  | _, _ => False

theorem SameRes.bind {α β : Type} {P : α → α → Prop} {Q : β → β → Prop} {x y : Py α}
    {f g : α → Py β} (h : SameRes P x y) (hf : ∀ a b, P a b → SameRes Q (f a) (g b)) :
    SameRes Q (x >>= f) (y >>= g) := by
  cases x <;> cases y <;> simp only [SameRes] at h
  · subst h; rfl
  · exact hf _ _ h

theorem SameRes.refl {α : Type} {P : α → α → Prop} (hP : ∀ a, P a a) (x : Py α) : SameRes P x x := by
  cases x with
  | error e => rfl
  | ok a => exact hP a

theorem SameRes.of_eq {α : Type} {x y : Py α} (h : x = y) : SameRes Eq x y := by
  subst h; exact SameRes.refl (fun _ => rfl) x

theorem SameRes.map {α β : Type} {P : α → α → Prop} {Q : β → β → Prop} {x y : Py α}
    {f g : α → β} (h : SameRes P x y) (hf : ∀ a b, P a b → Q (f a) (g b)) :
    SameRes Q (x.map f) (y.map g) := by
  cases x <;> cases y <;> simp only [SameRes] at h
  · subst h; rfl
  · exact hf _ _ h

theorem selectResults_congr {g1 g2 : Dict Val Relations} (h : ∀ f, g1.get? f = g2.get? f)
    (discard : Bool) (ow : Option (Dict Val Rat)) (s : σ) (reqs : List (Val × Val)) :
    selectResults R g1 discard ow s reqs = selectResults R g2 discard ow s reqs := by
  induction reqs generalizing s with
  | nil => rfl
  | cons q reqs ih =>
    obtain ⟨l, f⟩ := q
    rw [selectResults, selectResults, selectRow.eq_def, selectRow.eq_def, h f]
    congr 1
    funext x
    simp only [ih]

theorem allPicks_congr {g1 g2 : Dict Val Relations} (h : ∀ f, g1.get? f = g2.get? f)
    (s : σ) (l : List (Val × List (Val × Int))) :
    allPicks R g1 s l = allPicks R g2 s l := by
  induction l generalizing s with
  | nil => rfl
  | cons q l ih =>
    obtain ⟨f, rq⟩ := q
    rw [allPicks, allPicks, picksOf.eq_def, picksOf.eq_def, h f]
    congr 1
    funext x
    simp only [ih]

theorem remove_inplace_len {rs rs' : Relations} {is : List Nat}
    (hl : rs.tos.length = rs.weights.length) (h : rs.remove_inplace is = .ok rs') :
    rs'.tos.length = rs'.weights.length := by
  rw [Relations.remove_inplace] at h
  obtain ⟨a, ha, h⟩ := bind_eq_ok.1 h
  obtain ⟨b, hb, h⟩ := bind_eq_ok.1 h
  cases h
  obtain ⟨-, hi⟩ := npDelete_ok ha
  obtain ⟨k1, k2⟩ := npDelete_pair hl hi
  rw [k1] at ha; rw [k2] at hb
  cases ha; cases hb
  simp

theorem removeGroups_congr {g1 g2 : Dict Val Relations} (h : ∀ f, g1.get? f = g2.get? f)
    (h1 : GWF g1) (h2 : GWF g2) (groups : List (Val × List Nat)) :
    SameRes (fun a b => (∀ f, a.get? f = b.get? f) ∧ GWF a ∧ GWF b)
      (removeGroups g1 groups) (removeGroups g2 groups) := by
  induction groups generalizing g1 g2 with
  | nil => exact ⟨h, h1, h2⟩
  | cons x groups ih =>
    obtain ⟨f, is⟩ := x
    rw [removeGroups, removeGroups]
    have e : g1.get f = g2.get f := by rw [Dict.get, Dict.get, h f]
    rw [e]
    cases hg : g2.get f with
    | error e => rfl
    | ok rs =>
      have hg2 : g2.get? f = some rs := by
        rw [Dict.get] at hg; split at hg <;> cases hg; assumption
      rw [bind_ok, bind_ok]
      cases hi : rs.remove_inplace is with
      | error e => rfl
      | ok rs' =>
        rw [bind_ok, bind_ok]
        have hlen := remove_inplace_len (h2.len f rs hg2) hi
        split
        · apply ih
          · intro k; rw [Dict.get?_del h1.wf, Dict.get?_del h2.wf, h k]
          · exact ⟨h1.wf.del f, fun k rs hk => h1.len k rs (by
              rw [Dict.get?_del h1.wf] at hk; split at hk <;> simp_all)⟩
          · exact ⟨h2.wf.del f, fun k rs hk => h2.len k rs (by
              rw [Dict.get?_del h2.wf] at hk; split at hk <;> simp_all)⟩
        · apply ih
          · intro k; rw [Dict.get?_set, Dict.get?_set, h k]
          · refine ⟨h1.wf.set f rs', fun k rs hk => ?_⟩
            rw [Dict.get?_set] at hk
            split at hk
            · cases hk; exact hlen
            · exact h1.len k rs hk
          · refine ⟨h2.wf.set f rs', fun k rs hk => ?_⟩
            rw [Dict.get?_set] at hk
            split at hk
            · cases hk; exact hlen
            · exact h2.len k rs hk

theorem missingKeys_congr {r1 r2 : Relationship σ} (h : Same r1 r2) (ow : Option (Dict Val Rat)) :
    r1.missingKeys ow = [] ↔ r2.missingKeys ow = [] := by
  cases ow with
  | none => exact Iff.rfl
  | some d =>
    have hm : ∀ r1 r2 : Relationship σ, Same r1 r2 → ∀ t, t ∈ r1.unique_tos → t ∈ r2.unique_tos := by
      intro r1 r2 h t ht
      rw [unique_tos, List.mem_flatMap] at ht ⊢
      obtain ⟨⟨f, rs⟩, hx, ht⟩ := ht
      have := Dict.get?_of_mem h.wf1.wf hx
      rw [h.get] at this
      exact ⟨(f, rs), Dict.get?_mem this, ht⟩
    have h' : Same r2 r1 := ⟨h.seed.symm, h.state.symm, fun f => (h.get f).symm, h.wf2, h.wf1⟩
    rw [missingKeys, missingKeys, List.filter_eq_nil_iff, List.filter_eq_nil_iff]
    exact ⟨fun k t ht => k t (hm _ _ h' t ht), fun k t ht => k t (hm _ _ h t ht)⟩

theorem select_one_congr {r1 r2 : Relationship σ} (h : Same r1 r2) (reqs : List (Val × Val))
    (pop discard o2o : Bool) (ow : Option (Dict Val Rat)) :
    SameRes (fun x y => x.1 = y.1 ∧ Same x.2 y.2) (r1.select_one R (some reqs) pop discard o2o ow)
      (r2.select_one R (some reqs) pop discard o2o ow) := by
  rw [select_one, select_one]
  have hm := missingKeys_congr h ow
  by_cases h0 : r1.missingKeys ow = []
  · rw [if_neg (by simpa using h0), if_neg (by simpa using hm.1 h0), requests, requests, ← h.state,
      selectResults_congr R h.get]
    refine SameRes.bind (SameRes.of_eq rfl) ?_
    rintro ⟨out, s⟩ _ rfl
    simp only
    split
    · exact ⟨rfl, ⟨h.seed, rfl, h.get, h.wf1, h.wf2⟩⟩
    · refine SameRes.bind (removeGroups_congr h.get h.wf1 h.wf2 _) ?_
      rintro g1 g2 ⟨k1, k2, k3⟩
      exact ⟨rfl, ⟨h.seed, rfl, k1, k2, k3⟩⟩
  · rw [if_pos h0, if_pos (fun hc => h0 (hm.2 hc))]
    rfl

theorem select_many_congr {r1 r2 : Relationship σ} (h : Same r1 r2) (reqs : List (Val × Val × Int))
    (pop discard : Bool) :
    SameRes (fun x y => x.1 = y.1 ∧ Same x.2 y.2) (r1.select_many R reqs pop discard)
      (r2.select_many R reqs pop discard) := by
  rw [select_many, select_many, ← h.state]
  cases hg : gatherAll R reqs r1.state (uniq (reqs.map (·.2.1))) with
  | mk all s =>
  simp only
  rw [allPicks_congr R h.get]
  refine SameRes.bind (SameRes.of_eq rfl) ?_
  rintro ⟨out, s⟩ _ rfl
  refine SameRes.bind (removeGroups_congr h.get h.wf1 h.wf2 _) ?_
  rintro g1 g2 ⟨k1, k2, k3⟩
  exact ⟨rfl, ⟨h.seed, rfl, k1, k2, k3⟩⟩

theorem merge_congr (so1 so2 : SetOrder Val) {g1 g2 : Dict Val Relations}
    (h : ∀ f, g1.get? f = g2.get? f) (d : Dict Val Relations)
    (f : Relations → Relations → Relations) :
    SameRes (fun a b => ∀ k, a.get? k = b.get? k)
      (merge2 so1 g1 d (some fun a b => .ok (f a b)))
      (merge2 so2 g2 d (some fun a b => .ok (f a b))) := by
  obtain ⟨a, ha, -, ha2⟩ := merge2_total so1 g1 d f
  obtain ⟨b, hb, -, hb2⟩ := merge2_total so2 g2 d f
  rw [ha, hb]
  intro k
  rw [ha2, hb2, h]

theorem from_tuples_sort {e1 e2 : Orders} (h : e1.sort = e2.sort) (f t : List Val) (w : Weights) :
    Relations.from_tuples e1 f t w = Relations.from_tuples e2 f t w := by
  rw [Relations.from_tuples, Relations.from_tuples, h]

theorem add_relations_congr {r1 r2 : Relationship σ} (h : Same r1 r2) {e1 e2 : Orders}
    (he : e1.sort = e2.sort) (f t : List Val) (w : Weights) :
    SameRes Same (r1.add_relations e1 f t w) (r2.add_relations e2 f t w) := by
  have key : SameRes (fun a b => a.seed = b.seed ∧ a.state = b.state ∧
      ∀ k, a.grouped.get? k = b.grouped.get? k)
      (r1.add_relations e1 f t w) (r2.add_relations e2 f t w) := by
    rw [add_relations, add_relations, from_tuples_sort he]
    refine SameRes.bind (SameRes.of_eq rfl) ?_
    rintro d _ rfl
    refine SameRes.bind (merge_congr e1.set e2.set h.get d Relations.plus) ?_
    intro a b hab
    exact ⟨h.seed, h.state, hab⟩
  cases h1 : r1.add_relations e1 f t w with
  | error e => rw [h1] at key; cases h2 : r2.add_relations e2 f t w with
    | error e' => rw [h2] at key; exact key
    | ok b => rw [h2] at key; exact key.elim
  | ok a =>
    rw [h1] at key
    cases h2 : r2.add_relations e2 f t w with
    | error e' => rw [h2] at key; exact key.elim
    | ok b =>
      rw [h2] at key
      obtain ⟨k1, k2, k3⟩ := key
      obtain ⟨a', ha', -, -, ha4, -⟩ := add_relations_spec e1 h.wf1 (add_relations_ok e1 h1)
      obtain ⟨b', hb', -, -, hb4, -⟩ := add_relations_spec e2 h.wf2 (add_relations_ok e2 h2)
      rw [ha'] at h1; rw [hb'] at h2
      cases h1; cases h2
      exact ⟨k1, k2, k3, ha4, hb4⟩

theorem addCall_congr {r1 r2 : Relationship σ} (h : Same r1 r2) {e1 e2 : Orders}
    (he : e1.sort = e2.sort) (c : AddCall) :
    SameRes Same (AddCall.exec r1 (c, e1)) (AddCall.exec r2 (c, e2)) := by
  cases c with
  | relations f t w => exact add_relations_congr h he f t w
  | grouped f t =>
    simp only [AddCall.exec, add_grouped_relations]
    generalize f.zip t = l
    induction l generalizing r1 r2 with
    | nil => exact h
    | cons x l ih =>
      rw [List.foldlM_cons, List.foldlM_cons]
      exact SameRes.bind (add_relations_congr h he _ _ _) fun a b hab => ih hab

theorem remove_relations_congr {r1 r2 : Relationship σ} (h : Same r1 r2) {e1 e2 : Orders}
    (he : e1.sort = e2.sort) (f t : List Val) :
    SameRes Same (r1.remove_relations e1 f t) (r2.remove_relations e2 f t) := by
  by_cases hl : f.length ≤ t.length
  · obtain ⟨a, ha, ha2, ha3, ha4, -⟩ := remove_relations_spec e1 h.wf1 hl
    obtain ⟨b, hb, hb2, hb3, hb4, -⟩ := remove_relations_spec e2 h.wf2 hl
    have key : ∀ k, a.grouped.get? k = b.grouped.get? k := by
      rw [remove_relations] at ha hb
      rw [from_tuples_sort he] at ha
      obtain ⟨d, hd, ha⟩ := bind_eq_ok.1 ha
      obtain ⟨d', hd', hb⟩ := bind_eq_ok.1 hb
      rw [hd] at hd'; cases hd'
      obtain ⟨ga, hga, ha⟩ := bind_eq_ok.1 ha
      obtain ⟨gb, hgb, hb⟩ := bind_eq_ok.1 hb
      cases ha; cases hb
      simp only [merge_2_dicts] at hga hgb
      let mf : Relations → Relations → Relations := fun a b =>
        ⟨((a.tos.zip a.weights).filter (fun x => !b.tos.contains x.1)).map Prod.fst,
         ((a.tos.zip a.weights).filter (fun x => !b.tos.contains x.1)).map Prod.snd⟩
      rw [merge2_congr _ _ _ _ mf (fun k x y hx _ => minus_ok (h.wf1.len k x hx))] at hga
      rw [merge2_congr _ _ _ _ mf (fun k x y hx _ => minus_ok (h.wf2.len k x hx))] at hgb
      have := merge_congr e1.set e2.set h.get d mf
      rw [hga, hgb] at this
      exact this
    rw [ha, hb]
    exact ⟨ha2.trans (h.seed.trans hb2.symm), ha3.trans (h.state.trans hb3.symm), key, ha4, hb4⟩
  · have herr : ∀ (r : Relationship σ) (e : Orders), r.remove_relations e f t =
        (match Relations.from_tuples e f t (.scalar 0) with
          | .error x => .error x
          | .ok _ => .error .indexError) := by
      intro r e
      rw [remove_relations]
      cases hd : Relations.from_tuples e f t (.scalar 0) with
      | error x => rfl
      | ok d => exact absurd (from_tuples_ok e hd).1 hl
    rw [herr r1 e1, herr r2 e2, from_tuples_sort he]
    cases Relations.from_tuples e2 f t (.scalar 0) with
    | error x => rfl
    | ok d => rfl

theorem call_congr {r1 r2 : Relationship σ} (h : Same r1 r2) {e1 e2 : Orders}
    (he : e1.sort = e2.sort) (c : Spec.Call) :
    SameRes (fun x y => x.1 = y.1 ∧ Same x.2 y.2) (c.exec R r1 e1) (c.exec R r2 e2) := by
  cases c with
  | add c => exact (addCall_congr h he c).map fun a b hab => ⟨rfl, hab⟩
  | remove f t => exact (remove_relations_congr h he f t).map fun a b hab => ⟨rfl, hab⟩
  | selectOne reqs pop discard o2o ow =>
    exact (select_one_congr R h reqs pop discard o2o ow).map fun a b hab =>
      ⟨congrArg Spec.Output.rows hab.1, hab.2⟩
  | selectMany reqs pop discard =>
    exact (select_many_congr R h reqs pop discard).map fun a b hab =>
      ⟨congrArg Spec.Output.lists hab.1, hab.2⟩
  | sizes l =>
    refine ⟨congrArg Spec.Output.sizes ?_, h⟩
    simp only [get_neighbourhood_size, h.get]

/-- **C29** two relationships with the same seed, generator state and relations (in the same
per-from order), whose internal dictionaries may be in any order, give the same outputs in any
session of calls with explicit from_ids, whatever the set orders met by each of them. -/
theorem C29_sessions_repeatable {r1 r2 : Relationship σ} (h1 : Reachable R r1) (h2 : Reachable R r2)
    (hseed : r1.seed = r2.seed) (hstate : r1.state = r2.state)
    (hget : ∀ f, r1.grouped.get? f = r2.grouped.get? f)
    (sort : ArgSort) (sos1 sos2 : Nat → SetOrder Val) (n : Nat) (calls : List Spec.Call) :
    Spec.session R sort sos1 n r1 calls = Spec.session R sort sos2 n r2 calls := by
  have key : ∀ (calls : List Spec.Call) (n : Nat) (r1 r2 : Relationship σ), Same r1 r2 →
      Spec.session R sort sos1 n r1 calls = Spec.session R sort sos2 n r2 calls := by
    intro calls
    induction calls with
    | nil => intros; rfl
    | cons c cs ih =>
      intro n r1 r2 h
      have := call_congr R h (e1 := ⟨sos1 n, sort⟩) (e2 := ⟨sos2 n, sort⟩) rfl c
      rw [Spec.session, Spec.session]
      cases hx : c.exec R r1 ⟨sos1 n, sort⟩ with
      | error e =>
        rw [hx] at this
        cases hy : c.exec R r2 ⟨sos2 n, sort⟩ with
        | error e' => rw [hy] at this; simp only [SameRes] at this; rw [this]
        | ok y => rw [hy] at this; exact this.elim
      | ok x =>
        rw [hx] at this
        cases hy : c.exec R r2 ⟨sos2 n, sort⟩ with
        | error e' => rw [hy] at this; exact this.elim
        | ok y =>
          rw [hy] at this
          obtain ⟨k1, k2⟩ := this
          simp only
          rw [k1, ih (n + 1) _ _ k2]
  exact key calls n r1 r2 ⟨hseed, hstate, hget, h1.gwf, h2.gwf⟩

/-- **C29** in particular, a session starting from a new relationship only depends on the seed. -/
theorem C29_seeded_session (seed : Int) (sort : ArgSort) (sos1 sos2 : Nat → SetOrder Val)
    (calls : List Spec.Call) :
    Spec.session R sort sos1 0 (Relationship.new R seed) calls =
      Spec.session R sort sos2 0 (Relationship.new R seed) calls :=
  C29_sessions_repeatable R (Reachable.new seed) (Reachable.new seed) rfl rfl (fun _ => rfl) sort
    sos1 sos2 0 calls

/-- a session: the dictionary orders differ between the two set orders, not the outputs -/
example : Spec.session Rng.counter ArgSort.stable (fun _ => SetOrder.rdedup Val) 0
    (Relationship.new Rng.counter 1)
    [.add (.grouped [.str "a", .str "b"] [[.str "x", .str "y"], [.str "z"]]),
     .selectOne [(.num 1, .str "a"), (.num 2, .str "c")] true false true none,
     .sizes [.str "a"], .selectMany [(.num 1, .str "b", 2)] false true,
     .selectOne [] false true false (some [])] =
    [.ok .none, .ok (.rows [⟨.num 1, .str "a", some 0, some (.str "x")⟩, ⟨.num 2, .str "c", none, none⟩]),
     .ok (.sizes [(.str "a", 1)]), .ok (.lists [(.num 1, [.str "z"])]), .error .assertionError] := by
  decide +kernel

end Trumania
