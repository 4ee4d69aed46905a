import Verif.Spec.Stock
import Verif.Props.RelationOps
import Verif.Props.Journal

/-! Operations that leave the relationships of a set as they are. -/

namespace Trumania
open Spec World Relationship
variable {σ γ : Type} {env : Env σ γ} {S : Nat → Prop}

/-- the relationships of `S` keep their relations -/
def RelsKept (env : Env σ γ) (S : Nat → Prop) (w w' : World σ γ) : Prop :=
  ∀ i, S i → ∀ r, w.rels[i]? = some r → Reachable env.R r →
    ∃ r', w'.rels[i]? = some r' ∧ Reachable env.R r' ∧
      ∀ o, (r'.get_relations o).Perm (r.get_relations o)

theorem RelsKept.of_eq {w w' : World σ γ} (h : w'.rels = w.rels) : RelsKept env S w w' :=
  fun _ _ r hr hreach => ⟨r, by rw [h]; exact hr, hreach, fun _ => .refl _⟩

theorem RelsKept.trans {w w1 w' : World σ γ} (h : RelsKept env S w w1) (h' : RelsKept env S w1 w') :
    RelsKept env S w w' := by
  intro i hi r hr hreach
  obtain ⟨r1, h1, h2, h3⟩ := h i hi r hr hreach
  obtain ⟨r2, k1, k2, k3⟩ := h' i hi r1 h1 h2
  exact ⟨r2, k1, k2, fun o => (k3 o).trans (h3 o)⟩

theorem RelsKept.of_set {w : World σ γ} {rel : Nat} (h : ¬S rel) (r' : Relationship σ) :
    RelsKept env S w { w with rels := w.rels.set rel r' } := by
  intro i hi r hr hreach
  refine ⟨r, ?_, hreach, fun _ => .refl _⟩
  rw [List.getElem?_set_ne (by rintro rfl; exact h hi)]
  exact hr

theorem onRel_rels {rel : Nat} {f : Relationship σ → Frame → Py (Relationship σ)} {data : Frame}
    {x : Frame × Logs} {w w' : World σ γ} (hS : ¬S rel) (h : Ops.onRel rel f data w = .ok x w') :
    RelsKept env S w w' := by
  obtain ⟨-, ⟨-, rfl⟩ | ⟨r, r', -, -, -, rfl⟩⟩ := onRel_eq_ok h
  · exact .of_eq rfl
  · exact .of_set hS r'

theorem onAttribute_rels {pop : Nat} {name : String} {f : Attribute → Py Attribute}
    {w w' : World σ γ} (h : Ops.onAttribute pop name f w = .ok () w') : w'.rels = w.rels := by
  obtain ⟨p, w1, h1, h⟩ := Act.bind_eq_ok.1 h
  obtain ⟨a, w2, h2, h⟩ := Act.bind_eq_ok.1 h
  obtain ⟨a', w3, h3, h⟩ := Act.bind_eq_ok.1 h
  obtain ⟨-, rfl⟩ := getPop_eq_ok.1 h1
  obtain ⟨-, rfl⟩ := Act.ofPy_eq_ok.1 h2
  obtain ⟨-, rfl⟩ := Act.ofPy_eq_ok.1 h3
  have h3 := setPop_eq_ok.1 h
  subst h3
  rfl

theorem columnAdder_rels {name : String} {op : Op (World σ γ)} (hop : ColumnAdder env name op)
    {data : Frame} {out : Frame × Logs} {w w' : World σ γ} (h : op data w = .ok out w') :
    w'.rels = w.rels := by
  cases hop with
  | randomValues g q =>
    obtain ⟨o, h1, -⟩ := addColumns_eq_ok.1 h
    obtain ⟨v, w1, h2, h3⟩ := Act.bind_eq_ok.1 h1
    obtain ⟨-, rfl⟩ := Act.ofPy_eq_ok.1 h3
    cases q with
    | none => exact (call_sameRest h2).2.rels
    | some f =>
      obtain ⟨_, w1, h1, h2⟩ := Act.bind_eq_ok.1 h2
      obtain ⟨_, w2, h7, h4⟩ := Act.bind_eq_ok.1 h2
      obtain ⟨_, w3, h5, h6⟩ := Act.bind_eq_ok.1 h4
      obtain ⟨-, rfl⟩ := Act.ofPy_eq_ok.1 h1
      obtain ⟨-, rfl⟩ := Act.ofPy_eq_ok.1 h5
      obtain ⟨-, rfl⟩ := Act.pure_eq_ok.1 h6
      exact (call_sameRest h7).2.rels
  | randomValuesFromField g f =>
    obtain ⟨o, h1, -⟩ := addColumns_eq_ok.1 h
    obtain ⟨_, w1, h0, h2⟩ := Act.bind_eq_ok.1 h1
    obtain ⟨v, w2, h4, h3⟩ := Act.bind_eq_ok.1 h2
    obtain ⟨-, rfl⟩ := Act.ofPy_eq_ok.1 h0
    obtain ⟨-, rfl⟩ := Act.ofPy_eq_ok.1 h3
    exact (call_sameRest h4).2.rels
  | timestamp r f =>
    obtain ⟨o, h1, -⟩ := addColumns_eq_ok.1 h
    obtain ⟨wa, w1, h0, h2⟩ := Act.bind_eq_ok.1 h1
    obtain ⟨⟨d, c⟩, w2, h4, h3⟩ := Act.bind_eq_ok.1 h2
    obtain ⟨_, w3, h5, h6⟩ := Act.bind_eq_ok.1 h3
    obtain ⟨-, rfl⟩ := Act.ofPy_eq_ok.1 h6
    obtain ⟨e4, rfl⟩ := Act.ofPy_eq_ok.1 h4
    cases h0
    cases h5
    rfl
  | neighbourhoodSize rel f =>
    obtain ⟨o, h1, -⟩ := addColumns_eq_ok.1 h
    obtain ⟨_, w1, h2, h3⟩ := Act.bind_eq_ok.1 h1
    obtain ⟨_, w2, h4, h5⟩ := Act.bind_eq_ok.1 h3
    obtain ⟨-, rfl⟩ := Act.ofPy_eq_ok.1 h2
    obtain ⟨-, rfl⟩ := getRel_eq_ok.1 h4
    obtain ⟨-, rfl⟩ := Act.ofPy_eq_ok.1 h5
    rfl
  | applySeries s f =>
    obtain ⟨o, h1, -⟩ := addColumns_eq_ok.1 h
    obtain ⟨-, rfl⟩ := Act.ofPy_eq_ok.1 h1
    rfl

theorem apart_rels {op : Op (World σ γ)} (hop : Apart env S op) :
    ∀ {data : Frame} {out : Frame × Logs} {w w' : World σ γ}, op data w = .ok out w' →
      RelsKept env S w w' := by
  induction hop with
  | adder hop => exact fun h => .of_eq (columnAdder_rels hop h)
  | relAdd rel f i hS => exact onRel_rels hS
  | relAddGrouped rel f i hS => exact onRel_rels hS
  | relRemove rel f i =>
    intro data out w w' h
    obtain ⟨-, ⟨-, rfl⟩ | ⟨r, r', -, -, h3, -⟩⟩ := onRel_eq_ok h
    · exact .of_eq rfl
    · obtain ⟨_, -, h3⟩ := bind_eq_ok.1 h3
      obtain ⟨_, -, h3⟩ := bind_eq_ok.1 h3
      cases h3
  | attrUpdate pop name i c =>
    intro data out w w' h
    obtain ⟨h, -⟩ := sideEffect_eq_ok.1 h
    split at h
    · obtain ⟨-, rfl⟩ := Act.pure_eq_ok.1 h
      exact .of_eq rfl
    · obtain ⟨_, w1, h1, h⟩ := Act.bind_eq_ok.1 h
      obtain ⟨_, w2, h2, h⟩ := Act.bind_eq_ok.1 h
      obtain ⟨-, rfl⟩ := Act.ofPy_eq_ok.1 h1
      obtain ⟨-, rfl⟩ := Act.ofPy_eq_ok.1 h2
      exact .of_eq (onAttribute_rels h)
  | attrAdd pop name i a sub =>
    intro data out w w' h
    obtain ⟨h, -⟩ := sideEffect_eq_ok.1 h
    split at h
    · obtain ⟨-, rfl⟩ := Act.pure_eq_ok.1 h
      exact .of_eq rfl
    · obtain ⟨_, w1, h1, h⟩ := Act.bind_eq_ok.1 h
      obtain ⟨_, w2, h2, h⟩ := Act.bind_eq_ok.1 h
      obtain ⟨_, w3, h3, h⟩ := Act.bind_eq_ok.1 h
      obtain ⟨-, rfl⟩ := Act.ofPy_eq_ok.1 h1
      obtain ⟨-, rfl⟩ := Act.ofPy_eq_ok.1 h2
      obtain ⟨-, rfl⟩ := Act.ofPy_eq_ok.1 h3
      exact .of_eq (onAttribute_rels h)
  | popUpdate pop i copy =>
    intro data out w w' h
    obtain ⟨h, -⟩ := sideEffect_eq_ok.1 h
    obtain ⟨_, w1, h1, h⟩ := Act.bind_eq_ok.1 h
    obtain ⟨_, w2, h2, h⟩ := Act.bind_eq_ok.1 h
    obtain ⟨_, w3, h3, h⟩ := Act.bind_eq_ok.1 h
    obtain ⟨-, rfl⟩ := Act.ofPy_eq_ok.1 h1
    obtain ⟨-, rfl⟩ := getPop_eq_ok.1 h2
    obtain ⟨-, rfl⟩ := Act.ofPy_eq_ok.1 h3
    have h3 := setPop_eq_ok.1 h
    subst h3
    exact .of_eq rfl
  | forceActNext story i cond =>
    intro data out w w' h
    obtain ⟨h, -⟩ := sideEffect_eq_ok.1 h
    split at h
    · obtain ⟨-, rfl⟩ := Act.pure_eq_ok.1 h
      exact .of_eq rfl
    · obtain ⟨_, w1, h1, h⟩ := Act.bind_eq_ok.1 h
      obtain ⟨_, w2, h2, h⟩ := Act.bind_eq_ok.1 h
      obtain ⟨-, rfl⟩ := Act.ofPy_eq_ok.1 h1
      obtain ⟨-, rfl⟩ := Act.ofPy_eq_ok.1 h2
      obtain ⟨s, s', h3, h4, rfl⟩ := onStory_eq_ok.1 h
      exact .of_eq rfl
  | resetTimers story i =>
    intro data out w w' h
    obtain ⟨h, -⟩ := sideEffect_eq_ok.1 h
    obtain ⟨_, w1, h1, h⟩ := Act.bind_eq_ok.1 h
    obtain ⟨-, rfl⟩ := Act.ofPy_eq_ok.1 h1
    obtain ⟨t, t', w2, h2, h3, rfl⟩ := resetTimers_eq_ok.1 h
    exact .of_eq (resetStory_ok h3).2.1.rels
  | transitToState story i src cond =>
    intro data out w w' h
    obtain ⟨h, -⟩ := sideEffect_eq_ok.1 h
    obtain ⟨_, w1, h1, h⟩ := Act.bind_eq_ok.1 h
    obtain ⟨_, w2, h2, h⟩ := Act.bind_eq_ok.1 h
    obtain ⟨-, rfl⟩ := Act.ofPy_eq_ok.1 h1
    obtain ⟨-, rfl⟩ := Act.ofPy_eq_ok.1 h2
    obtain ⟨s, s', h3, h4, rfl⟩ := onStory_eq_ok.1 h
    exact .of_eq rfl
  | maybeBackToDefault story =>
    intro data out w w' h
    obtain ⟨h, -⟩ := sideEffect_eq_ok.1 h
    obtain ⟨s, s', h3, h4, rfl⟩ := onStory_eq_ok.1 h
    exact .of_eq rfl
  | fieldLogger logId cols exploded =>
    intro data out w w' h
    obtain ⟨_, w1, h1, h⟩ := Act.bind_eq_ok.1 h
    obtain ⟨-, rfl⟩ := Act.ofPy_eq_ok.1 h1
    obtain ⟨-, rfl⟩ := Act.pure_eq_ok.1 h
    exact .of_eq rfl
  | dropRow field =>
    intro data out w w' h
    obtain ⟨rfl, -⟩ := transform_eq_ok.1 h
    exact .of_eq rfl
  | applyFrame sources namedAs f =>
    intro data out w w' h
    obtain ⟨o, h1, -⟩ := addColumns_eq_ok.1 h
    obtain ⟨-, rfl⟩ := Act.ofPy_eq_ok.1 h1
    exact .of_eq rfl
  | selectOne rel f name o p d weight hS =>
    intro data out w w' h
    obtain ⟨froms, r0, r', rows, -, h2, h3, rfl, -⟩ := selectOne_eq_ok h
    cases p with
    | true => exact .of_set (hS rfl) r'
    | false =>
      intro i hi r hr hreach
      by_cases hir : rel = i
      · subst hir
        rw [h2] at hr
        cases hr
        refine ⟨r', List.getElem?_set_self (List.getElem?_eq_some_iff.1 h2).1, .selectOne hreach h3,
          fun o => ?_⟩
        obtain ⟨-, outs', hs⟩ := select_one_ok env.R hreach.gwf h3
        rw [get_relations_perm_iff, hs.keep rfl]
        intro f
        rw [get_relations_none_rowsOf]
      · refine ⟨r, ?_, hreach, fun _ => .refl _⟩
        rw [List.getElem?_set_ne hir]
        exact hr
  | selectAll rel f name =>
    intro data out w w' h
    obtain ⟨_, _, -, -, rfl, -⟩ := selectAll_eq_ok h
    exact .of_eq rfl
  | selectMany rel f name q p d hS =>
    intro data out w w' h
    obtain ⟨_, _, _, r', _, -, -, -, -, rfl, -⟩ := selectMany_eq_ok h
    exact .of_set hS r'
  | lookup pop i sel =>
    intro data out w w' h
    obtain ⟨o, h1, -⟩ := addColumns_eq_ok.1 h
    obtain ⟨p, w1, h2, h3⟩ := Act.bind_eq_ok.1 h1
    obtain ⟨-, rfl⟩ := getPop_eq_ok.1 h2
    obtain ⟨-, rfl⟩ := Act.ofPy_eq_ok.1 h3
    exact .of_eq rfl
  | chain ops _ ih =>
    intro data out w w' h
    have : ∀ {l : List (Op (World σ γ))}, (∀ op ∈ l, op ∈ ops) → ∀ {acc out : Frame × Logs}
        {w w' : World σ γ}, runOps env.logSet acc l w = .ok out w' → RelsKept env S w w' := by
      intro l
      induction l with
      | nil =>
        intro _ acc out w w' h
        rw [runOps, Act.pure_eq_ok] at h
        obtain ⟨-, rfl⟩ := h
        exact .of_eq rfl
      | cons op l ihl =>
        intro hl acc out w w' h
        rw [runOps, Act.bind_eq_ok] at h
        obtain ⟨acc1, w1, h1, h2⟩ := h
        obtain ⟨supp, h3, -⟩ := executeOperation_eq_ok h1
        exact (ih op (hl op (by simp)) h3).trans (ihl (fun o ho => hl o (by simp [ho])) h2)
    exact this (fun _ h => h) h

theorem runs_apart {ops : List (Op (World σ γ))} (hops : ∀ op ∈ ops, Apart env S op)
    {data out : Frame} {ls : List Logs} {w w' : World σ γ} (h : Runs ops data w out ls w') :
    RelsKept env S w w' := by
  induction h with
  | nil => exact .of_eq rfl
  | cons h _ ih => exact (apart_rels (hops _ (by simp)) h).trans (ih fun o ho => hops o (by simp [ho]))

/-! ### Holdings -/

theorem stockAt_of {o : Orders} {w : World σ γ} {i : Nat} {r : Relationship σ}
    (h : w.rels[i]? = some r) : stockAt o w i = (r.get_relations o).map fun x => (x.1, x.2.1) := by
  rw [stockAt, h]

theorem RelsKept.stockAt {stocks : List Nat} {w w' : World σ γ}
    (h : RelsKept env (· ∈ stocks) w w') (hok : StocksOk env stocks w) :
    StocksOk env stocks w' ∧ ∀ o, ∀ i ∈ stocks, (stockAt o w' i).Perm (stockAt o w i) := by
  refine ⟨fun i hi => ?_, fun o i hi => ?_⟩
  · obtain ⟨r, h1, h2⟩ := hok i hi
    obtain ⟨r', h3, h4, -⟩ := h i hi r h1 h2
    exact ⟨r', h3, h4⟩
  · obtain ⟨r, h1, h2⟩ := hok i hi
    obtain ⟨r', h3, -, h5⟩ := h i hi r h1 h2
    rw [stockAt_of h1, stockAt_of h3]
    exact (h5 o).map _

theorem RelsKept.of_rels {w w' : World σ γ} (h : w'.rels = w.rels) (stocks : List Nat) (o : Orders) :
    (StocksOk env stocks w' ↔ StocksOk env stocks w) ∧ ∀ i, Spec.stockAt o w' i = Spec.stockAt o w i := by
  simp only [StocksOk, Spec.stockAt, h]
  exact ⟨trivial, fun _ => trivial⟩

/-- holdings when each stock gains and loses -/
theorem holdings_change {o : Orders} {stocks : List Nat} {w w' : World σ γ}
    (plus minus : Nat → List (Val × Val))
    (h : ∀ i ∈ stocks, (stockAt o w' i ++ minus i).Perm (stockAt o w i ++ plus i)) :
    (holdings o stocks w' ++ stocks.flatMap fun i => (minus i).map Prod.snd).Perm
      (holdings o stocks w ++ stocks.flatMap fun i => (plus i).map Prod.snd) := by
  induction stocks with
  | nil => exact .refl _
  | cons a l ih =>
    have h1 := (h a (by simp)).map Prod.snd
    have h2 := ih fun i hi => h i (by simp [hi])
    simp only [holdings, List.flatMap_cons, List.map_append] at h1 h2 ⊢
    rw [List.perm_iff_count] at h1 h2 ⊢
    intro x
    have k1 := h1 x
    have k2 := h2 x
    simp only [List.count_append] at k1 k2 ⊢
    omega

/-- the part of one stock in a list of distinct stocks -/
theorem flatMap_single {β : Type} {stocks : List Nat} (hn : stocks.Nodup) {a : Nat} (ha : a ∈ stocks)
    (l : List β) : (stocks.flatMap fun i => if i = a then l else []) = l := by
  induction stocks with
  | nil => cases ha
  | cons b t ih =>
    rw [List.nodup_cons] at hn
    rw [List.flatMap_cons]
    by_cases hb : b = a
    · subst hb
      have : (t.flatMap fun i => if i = b then l else []) = [] := by
        rw [List.flatMap_eq_nil_iff]
        intro i hi
        rw [if_neg]
        rintro rfl
        exact hn.1 hi
      rw [if_pos rfl, this, List.append_nil]
    · rw [if_neg hb, List.nil_append]
      exact ih hn.2 ((List.mem_cons.1 ha).resolve_left (Ne.symm hb))

/-- two lists of rows with the same distinct labels, of which each row of the one has its value in the
other -/
theorem map_eq_of_labels {β : Type} {l l' : List Row} {g g' : Row → β}
    (hn : (l.map (·.idx)).Nodup) (he : l'.map (·.idx) = l.map (·.idx))
    (h : ∀ r' ∈ l', ∃ r ∈ l, r.idx = r'.idx ∧ g' r' = g r) : l'.map g' = l.map g := by
  induction l generalizing l' with
  | nil =>
    obtain rfl : l' = [] := by simpa using he
    rfl
  | cons a l ih =>
    cases l' with
    | nil => simp at he
    | cons b l' =>
      simp only [List.map_cons, List.cons.injEq] at he
      rw [List.map_cons, List.nodup_cons] at hn
      have hb : g' b = g a := by
        obtain ⟨r, hr, e1, e2⟩ := h b (by simp)
        rcases List.mem_cons.1 hr with rfl | hr
        · exact e2
        · exact absurd (List.mem_map.2 ⟨r, hr, e1.trans he.1⟩) hn.1
      rw [List.map_cons, List.map_cons, hb, ih hn.2 he.2]
      intro r' hr'
      obtain ⟨r, hr, e1, e2⟩ := h r' (by simp [hr'])
      rcases List.mem_cons.1 hr with rfl | hr
      · exfalso
        apply hn.1
        rw [← he.2, e1]
        exact List.mem_map.2 ⟨r', hr', rfl⟩
      · exact ⟨r, hr, e1, e2⟩

/-- a column given by a merge to a field that exists already has no longer that name -/
theorem not_mem_mergedCols {cols : List String} {name : String} (h : name ∈ cols) :
    name ∉ Frame.mergedCols cols [name] := by
  have hne : ∀ x : String, x ++ "_x" ≠ x := by
    intro x hx
    have := congrArg String.length hx
    simp at this
  have hne' : ∀ x : String, x ++ "_y" ≠ x := by
    intro x hx
    have := congrArg String.length hx
    simp at this
  simp only [Frame.mergedCols, List.mem_append, List.mem_map, List.mem_singleton, not_or, not_exists,
    not_and]
  refine ⟨fun c hc => ?_, fun c hc => ?_⟩
  · split
    · rename_i he
      subst he
      exact hne c
    · rename_i he
      exact he
  · subst hc
    rw [if_pos h]
    exact hne' c

end Trumania
