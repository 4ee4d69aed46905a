import Verif.Proofs.Gen
import Verif.Model.Networks
import Verif.Proofs.Act
import Verif.Proofs.FileSystem
import Verif.Props.Relationship

/-! Helper lemmas: relationships filled at creation. -/

namespace Trumania

theorem nextSeed_ok {σ : Type} (R : Rng σ) (s : σ) : ∃ x s', nextSeed R s = .ok (x, s') := by
  have h := R.randint_length s (2 ^ 31 - 1 - 1) 1
  rw [nextSeed]
  cases hr : R.randint s (2 ^ 31 - 1 - 1) 1 with
  | mk l s' =>
    rw [hr] at h
    match l, h with
    | [x], _ => exact ⟨_, _, rfl⟩

namespace Circus
variable {σ γ : Type} {env : Env σ γ}

theorem drawSeed_eq_ok {w w' : World σ γ} {x : Int} (h : drawSeed env w = .ok x w') :
    ∃ s, nextSeed env.R w.seeder = .ok (x, s) ∧ w' = { w with seeder := s } := by
  rw [drawSeed, Act.bind_ok (FS.get_ok w)] at h
  obtain ⟨⟨y, s⟩, w1, h1, h2⟩ := Act.bind_eq_ok.1 h
  obtain ⟨g1, rfl⟩ := Act.ofPy_eq_ok.1 h1
  cases h2
  exact ⟨s, g1, rfl⟩

theorem drawSeed_ok (w : World σ γ) : ∃ x s, nextSeed env.R w.seeder = .ok (x, s) ∧
    drawSeed env w = .ok x { w with seeder := s } := by
  obtain ⟨x, s, h⟩ := nextSeed_ok env.R w.seeder
  refine ⟨x, s, h, ?_⟩
  rw [drawSeed, Act.bind_ok (FS.get_ok w), Act.bind_ok (Act.ofPy_ok h w)]
  rfl

/-- the world after the creation of a relationship -/
def withRel (env : Env σ γ) (w : World σ γ) (pop : Nat) (name : String) (p : Population) (x : Int)
    (s : σ) : World σ γ :=
  { w with
    seeder := s, rels := w.rels ++ [Relationship.new env.R x]
    pops := w.pops.set pop
      { p with relationships := p.relationships.set name w.rels.length } }

theorem createRelationship_eq_ok {w w' : World σ γ} {pop : Nat} {name : String} {i : Nat}
    (h : createRelationship env pop name none w = .ok i w') :
    ∃ p x s, nextSeed env.R w.seeder = .ok (x, s) ∧ w.pops[pop]? = some p ∧ i = w.rels.length ∧
      w' = withRel env w pop name p x s := by
  rw [createRelationship] at h
  obtain ⟨x, w1, h1, h⟩ := Act.bind_eq_ok.1 h
  obtain ⟨s, g1, rfl⟩ := drawSeed_eq_ok h1
  obtain ⟨j, w2, h2, h⟩ := Act.bind_eq_ok.1 h
  rw [appendRel] at h2
  cases h2
  obtain ⟨p, w3, h3, h⟩ := Act.bind_eq_ok.1 h
  obtain ⟨g3, rfl⟩ := World.getPop_eq_ok.1 h3
  obtain ⟨u, w4, h4, h⟩ := Act.bind_eq_ok.1 h
  obtain ⟨rfl, rfl⟩ := Act.pure_eq_ok.1 h
  cases h4
  exact ⟨p, x, s, g1, g3, rfl, rfl⟩

theorem createRelationship_ok {w : World σ γ} {pop : Nat} (name : String) {p : Population}
    (hp : w.pops[pop]? = some p) : ∃ x s, nextSeed env.R w.seeder = .ok (x, s) ∧
      createRelationship env pop name none w = .ok w.rels.length (withRel env w pop name p x s) := by
  obtain ⟨x, s, h, hd⟩ := drawSeed_ok (env := env) w
  refine ⟨x, s, h, ?_⟩
  rw [createRelationship, Act.bind_ok hd]
  have h2 : appendRel (Relationship.new env.R x) { w with seeder := s } =
    .ok w.rels.length
      { w with seeder := s, rels := w.rels ++ [Relationship.new env.R x] } := rfl
  refine (Act.bind_ok h2).trans ?_
  have h3 : World.getPop pop
      { w with seeder := s, rels := w.rels ++ [Relationship.new env.R x] } =
    .ok p { w with seeder := s, rels := w.rels ++ [Relationship.new env.R x] } :=
    World.getPop_eq_ok.2 ⟨hp, rfl⟩
  rw [Act.bind_ok h3]
  rfl

theorem addRelations_eq_ok {w w' : World σ γ} {i : Nat} {f t : List Val} {ws : Weights} {u : Unit}
    (h : addRelations env i f t ws w = .ok u w') :
    ∃ r r', w.rels[i]? = some r ∧ r.add_relations env.orders f t ws = .ok r' ∧
      w' = { w with rels := w.rels.set i r' } := by
  rw [addRelations] at h
  obtain ⟨r, w1, h1, h⟩ := Act.bind_eq_ok.1 h
  obtain ⟨g1, rfl⟩ := World.getRel_eq_ok.1 h1
  obtain ⟨r', w2, h2, h⟩ := Act.bind_eq_ok.1 h
  obtain ⟨g2, rfl⟩ := Act.ofPy_eq_ok.1 h2
  exact ⟨r, r', g1, g2, World.setRel_eq_ok.1 h⟩

theorem addRelations_ok {w : World σ γ} {i : Nat} {f t : List Val} {ws : Weights}
    {r r' : Relationship σ} (h1 : w.rels[i]? = some r)
    (h2 : r.add_relations env.orders f t ws = .ok r') :
    addRelations env i f t ws w = .ok () { w with rels := w.rels.set i r' } := by
  rw [addRelations, Act.bind_ok (World.getRel_eq_ok.2 ⟨h1, rfl⟩), Act.bind_ok (Act.ofPy_ok h2 _)]
  rfl

theorem addGroupedRelations_eq_ok {w w' : World σ γ} {i : Nat} {f : List Val} {t : List (List Val)}
    {u : Unit} (h : addGroupedRelations env i f t w = .ok u w') :
    ∃ r r', w.rels[i]? = some r ∧ r.add_grouped_relations env.orders f t = .ok r' ∧
      w' = { w with rels := w.rels.set i r' } := by
  rw [addGroupedRelations] at h
  obtain ⟨r, w1, h1, h⟩ := Act.bind_eq_ok.1 h
  obtain ⟨g1, rfl⟩ := World.getRel_eq_ok.1 h1
  obtain ⟨r', w2, h2, h⟩ := Act.bind_eq_ok.1 h
  obtain ⟨g2, rfl⟩ := Act.ofPy_eq_ok.1 h2
  exact ⟨r, r', g1, g2, World.setRel_eq_ok.1 h⟩

/-- what `x` does only depends on the clock and the generators, and only changes them -/
def ClockOnly {α : Type} (x : Act (World σ γ) α) : Prop :=
  ∀ w w' a, x w = .ok a w' → w' = { w with clock := w'.clock } ∧
    ∀ v : World σ γ, v.clock = w.clock → x v = .ok a { v with clock := w'.clock }

theorem ClockOnly.pure {α : Type} (a : α) : ClockOnly (pure a : Act (World σ γ) α) := by
  intro w w' b h
  obtain ⟨rfl, rfl⟩ := Act.pure_eq_ok.1 h
  refine ⟨rfl, fun v hv => ?_⟩
  rw [← hv]; rfl

theorem ClockOnly.throw {α : Type} (e : Err) : ClockOnly (throw e : Act (World σ γ) α) :=
  fun _ _ _ h => absurd h World.throw_ne_ok

theorem ClockOnly.ofPy {α : Type} (x : Py α) : ClockOnly (Act.ofPy x : Act (World σ γ) α) := by
  intro w w' b h
  obtain ⟨h1, rfl⟩ := Act.ofPy_eq_ok.1 h
  refine ⟨rfl, fun v hv => ?_⟩
  rw [← hv]; exact Act.ofPy_ok h1 v

theorem ClockOnly.bind {α β : Type} {x : Act (World σ γ) α} {f : α → Act (World σ γ) β}
    (hx : ClockOnly x) (hf : ∀ a, ClockOnly (f a)) : ClockOnly (x >>= f) := by
  intro w w' b h
  obtain ⟨a, w1, h1, h2⟩ := Act.bind_eq_ok.1 h
  obtain ⟨e1, g1⟩ := hx _ _ _ h1
  obtain ⟨e2, g2⟩ := hf _ _ _ _ h2
  refine ⟨?_, fun v hv => ?_⟩
  · rw [e2, e1]
  · exact (Act.bind_ok (g1 v hv)).trans (g2 _ rfl)

theorem ClockOnly.getGen (i : Nat) : ClockOnly (World.getGen i : Act (World σ γ) γ) := by
  intro w w' b h
  obtain ⟨h1, rfl⟩ := World.getGen_eq_ok.1 h
  refine ⟨rfl, fun v hv => ?_⟩
  rw [World.getGen_eq_ok, World.gens, hv]
  refine ⟨h1, ?_⟩
  rw [← hv]

theorem ClockOnly.setGen (i : Nat) (g : γ) : ClockOnly (World.setGen i g : Act (World σ γ) Unit) := by
  intro w w' b h
  rw [World.setGen_eq_ok.1 h]
  refine ⟨rfl, fun v hv => ?_⟩
  rw [World.setGen_eq_ok, hv]

theorem ClockOnly.bulkLoop {f : Rat → Act (World σ γ) (List Cell)} (hf : ∀ n, ClockOnly (f n))
    (obs : List Cell) : ClockOnly (World.bulkLoop f obs) := by
  induction obs with
  | nil => exact .pure _
  | cons c obs ih =>
    exact (ClockOnly.ofPy _).bind fun n => (hf n).bind fun v => (ClockOnly.ofPy _).bind fun _ =>
      ih.bind fun _ => .pure _

theorem ClockOnly.isArray (g : GenRef) : ClockOnly (World.isArray env g) := by
  cases g with
  | ref i => exact (ClockOnly.getGen i).bind fun g => .pure _
  | _ => exact .pure _

theorem ClockOnly.call (g : GenRef) (q : World.Request) : ClockOnly (World.call env g q) := by
  induction g generalizing q with
  | constant v =>
    cases q with
    | size n => exact .pure _
    | series obs => exact .pure _
    | samples array obs => exact .throw _
  | ref i =>
    cases q with
    | size n =>
      exact (ClockOnly.getGen i).bind fun g => (ClockOnly.ofPy _).bind fun x =>
        (ClockOnly.setGen _ _).bind fun _ => .pure _
    | series obs =>
      exact (ClockOnly.getGen i).bind fun g => (ClockOnly.ofPy _).bind fun x =>
        (ClockOnly.setGen _ _).bind fun _ => .pure _
    | samples array obs =>
      exact (ClockOnly.getGen i).bind fun g => (ClockOnly.ofPy _).bind fun _ =>
        (ClockOnly.ofPy _).bind fun x => (ClockOnly.setGen _ _).bind fun _ => .pure _
  | mapped g f ih =>
    cases q with
    | size n => exact (ih _).bind fun v => .ofPy _
    | series obs => exact .throw _
    | samples array obs => exact .throw _
  | mappedVect g f ih =>
    cases q with
    | size n => exact (ih _).bind fun v => .ofPy _
    | series obs => exact .throw _
    | samples array obs => exact .throw _
  | flatmapped g dep ih1 ih2 =>
    cases q with
    | size n => exact (ih1 _).bind fun v => (ClockOnly.isArray g).bind fun b => ih2 _
    | series obs => exact .throw _
    | samples array obs => exact .throw _
  | bulk g ih =>
    cases q with
    | size n => exact .throw _
    | series obs => exact .bulkLoop (fun n => ih _) _
    | samples array obs => exact .bulkLoop (fun n => ih _) _

/-- what `generate` does only depends on the generators, and only changes them -/
theorem generate_frame {w w' : World σ γ} {g : GenRef} {x : Rat} {cells : List Cell}
    (h : World.generate env g x w = .ok cells w') :
    w' = { w with clock := w'.clock } ∧
    ∀ v : World σ γ, v.clock = w.clock →
      World.generate env g x v = .ok cells { v with clock := w'.clock } :=
  ClockOnly.call g _ w w' cells h

theorem mapM_ok_map {α β : Type} {f : α → Py β} {l : List α} {l' : List β}
    (h : l.mapM f = .ok l') : List.Forall₂ (fun a b => f a = .ok b) l l' := by
  induction l generalizing l' with
  | nil => simp only [List.mapM_nil] at h; cases h; exact .nil
  | cons a l ih =>
    rw [List.mapM_cons] at h
    cases ha : f a with
    | error e => rw [ha] at h; cases h
    | ok b =>
      rw [ha] at h
      cases hl : l.mapM f with
      | error e => rw [hl] at h; cases h
      | ok bs => rw [hl] at h; cases h; exact .cons ha (ih hl)

theorem nth_ok {α : Type} {l : List α} {i : Nat} {a : α} (h : nth l i = .ok a) :
    l[i]? = some a := by
  rw [nth.eq_def] at h
  cases hl : l[i]? with
  | none => rw [hl] at h; cases h
  | some b => rw [hl] at h; cases h; rfl

theorem make_random_assign_ok {α β : Type} {R : Rng σ} {seed : Int} {s1 : List α} {s2 : List β}
    {l : List (α × β)} (h : make_random_assign R seed s1 s2 = .ok l) :
    l.map Prod.fst = s1 ∧ ∀ b ∈ l.map Prod.snd, b ∈ s2 := by
  rw [make_random_assign] at h
  cases hc : R.choice (R.seed seed) s2.length s1.length with
  | error e => rw [hc] at h; cases h
  | ok x =>
    obtain ⟨idx, s'⟩ := x
    rw [hc] at h
    replace h : (idx.mapM (nth s2) >>= fun chosen => (Except.ok (s1.zip chosen) : Py _)) = .ok l := h
    cases hm : idx.mapM (nth s2) with
    | error e => rw [hm] at h; cases h
    | ok ch =>
      rw [hm] at h
      cases h
      have hf := mapM_ok_map hm
      have hlen : idx.length = s1.length := by
        rw [Rng.choice] at hc
        split at hc
        · cases hc
        · have := R.randint_length (R.seed seed) s2.length s1.length
          simp only [Except.ok.injEq] at hc
          rw [hc] at this
          exact this
      have hl := hf.length_eq
      constructor
      · rw [List.map_fst_zip]; omega
      · intro b hb
        rw [List.map_snd_zip (by omega)] at hb
        obtain ⟨i, -, hi⟩ := (List.forall₂_iff_get.1 hf).2 |> fun hg =>
          (by
            obtain ⟨k, hk, rfl⟩ := List.getElem_of_mem hb
            exact ⟨idx[k]'(by omega), trivial, hg k (by omega) hk⟩ :
            ∃ i, True ∧ nth s2 i = .ok b)
        exact List.mem_of_getElem? (nth_ok hi)

theorem make_random_assign_total {α β : Type} (R : Rng σ) (seed : Int) (s1 : List α) (s2 : List β)
    (h : s2 ≠ [] ∨ s1 = []) : ∃ l, make_random_assign R seed s1 s2 = .ok l := by
  rw [make_random_assign]
  cases hc : R.choice (R.seed seed) s2.length s1.length with
  | error e =>
    exfalso
    rw [Rng.choice] at hc
    split at hc
    · rename_i h2
      rcases h with h | h
      · exact h (List.length_eq_zero_iff.1 h2.1)
      · simp [h] at h2
    · cases hc
  | ok x =>
    obtain ⟨idx, s'⟩ := x
    have hi : ∀ i ∈ idx, i < s2.length := by
      intro i hi
      rw [Rng.choice] at hc
      split at hc
      · cases hc
      · have hlen := R.randint_length (R.seed seed) s2.length s1.length
        have hr := R.randint_range (R.seed seed) s2.length s1.length
        simp only [Except.ok.injEq] at hc
        rw [hc] at hr hlen
        rcases h with h | h
        · exact hr (List.length_pos_iff.2 h) i hi
        · rw [h] at hlen
          have he : idx = [] := List.length_eq_zero_iff.1 hlen
          rw [he] at hi
          cases hi
    have hm : ∀ idx : List Nat, (∀ i ∈ idx, i < s2.length) →
        ∃ ch, idx.mapM (nth s2) = .ok ch := by
      intro idx
      induction idx with
      | nil => exact fun _ => ⟨[], rfl⟩
      | cons i idx ih =>
        intro hi
        obtain ⟨ch, hch⟩ := ih fun j hj => hi j (List.mem_cons_of_mem _ hj)
        have h1 := hi i List.mem_cons_self
        refine ⟨s2[i] :: ch, ?_⟩
        rw [List.mapM_cons, hch]
        simp only [nth, List.getElem?_eq_getElem h1]
        rfl
    obtain ⟨ch, hch⟩ := hm idx hi
    refine ⟨s1.zip ch, ?_⟩
    show (idx.mapM (nth s2) >>= fun chosen => (Except.ok (s1.zip chosen) : Py _)) = _
    rw [hch]
    rfl

end Circus
end Trumania
