import Verif.Proofs.Snd
import Verif.Proofs.OpsPops

/-! The attributes of the dealers, in the circus that the constructor of the scenario builds. -/

namespace Trumania
namespace Snd
open Spec World Circus
variable {σ γ : Type} {env : Env σ γ}

/-- the attributes of the population `k` -/
def attrsAt (k : Nat) (w : World σ γ) : Option (Dict String Attribute) := w.pops[k]?.map (·.attributes)

/-- the attributes of the population `k` are left as they are -/
def KeepsAttrs {α : Type} (k : Nat) (a : Act (World σ γ) α) : Prop :=
  ∀ w x w', a w = .ok x w' → attrsAt k w' = attrsAt k w

section
variable {α β : Type} {k : Nat}

theorem KeepsAttrs.bind {a : Act (World σ γ) α} {f : α → Act (World σ γ) β} (ha : KeepsAttrs k a)
    (hf : ∀ x, KeepsAttrs k (f x)) : KeepsAttrs k (a >>= f) := by
  intro w x w' h
  obtain ⟨y, w1, h1, h2⟩ := Act.bind_eq_ok.1 h
  exact (hf y _ _ _ h2).trans (ha _ _ _ h1)

theorem KeepsAttrs.pure (x : α) : KeepsAttrs k (pure x : Act (World σ γ) α) := by
  intro w y w' h
  obtain ⟨-, rfl⟩ := Act.pure_eq_ok.1 h
  rfl

theorem KeepsAttrs.ofPy (x : Py α) : KeepsAttrs k (Act.ofPy x : Act (World σ γ) α) := by
  intro w y w' h
  obtain ⟨-, rfl⟩ := Act.ofPy_eq_ok.1 h
  rfl

theorem KeepsAttrs.getPop (i : Nat) : KeepsAttrs k (World.getPop i : Act (World σ γ) _) := by
  intro w y w' h
  obtain ⟨-, rfl⟩ := getPop_eq_ok.1 h
  rfl

theorem KeepsAttrs.of_pops {a : Act (World σ γ) α} (h : ∀ w x w', a w = .ok x w' → w'.pops = w.pops) :
    KeepsAttrs k a := by
  intro w x w' hx
  rw [attrsAt, h w x w' hx]
  rfl

theorem KeepsAttrs.drawSeed : KeepsAttrs k (Circus.drawSeed env) := by
  refine .of_pops fun w x w' h => ?_
  obtain ⟨s, -, rfl⟩ := drawSeed_eq_ok h
  rfl

theorem KeepsAttrs.addGenerator (g : γ) : KeepsAttrs k (Snd.addGenerator g : Act (World σ γ) _) := by
  refine .of_pops fun w x w' h => ?_
  cases h
  rfl

theorem KeepsAttrs.seeded (mk : Int → γ) : KeepsAttrs k (Snd.seeded env mk) :=
  KeepsAttrs.drawSeed.bind fun _ => .addGenerator _

theorem KeepsAttrs.generate (g : GenRef) (n : Rat) : KeepsAttrs k (World.generate env g n) :=
  .of_pops fun _ _ _ h => generate_pops h

theorem KeepsAttrs.addRelations (i : Nat) (f t : List Val) (ws : Weights) :
    KeepsAttrs k (Circus.addRelations env i f t ws) := by
  refine .of_pops fun w x w' h => ?_
  obtain ⟨r, r', -, -, rfl⟩ := addRelations_eq_ok h
  rfl

theorem KeepsAttrs.createStory (cfg : StoryConfig) : KeepsAttrs k (World.createStory env cfg) := by
  refine .of_pops fun w x w' h => ?_
  obtain ⟨-, p, s, w1, h2, h3, rfl, rfl⟩ := createStory_ok h
  obtain ⟨st, s0, w2, -, -, -, k1, k2, -⟩ := newStory_ok h3
  exact k2.pops

theorem KeepsAttrs.relNamed (pop : Nat) (name : String) :
    KeepsAttrs k (Snd.relNamed pop name : Act (World σ γ) _) :=
  (KeepsAttrs.getPop _).bind fun _ => .ofPy _

theorem KeepsAttrs.storyNamed (name : String) : KeepsAttrs k (Snd.storyNamed name : Act (World σ γ) _) := by
  refine .of_pops fun w x w' h => ?_
  rw [Snd.storyNamed, Act.bind_ok (FS.get_ok w)] at h
  cases hf : w.findStory name with
  | none => rw [hf] at h; cases h
  | some j => rw [hf] at h; cases h; rfl

theorem attrs_set {w : World σ γ} {i : Nat} {p p' : Population} (hp : w.pops[i]? = some p)
    (h : p'.attributes = p.attributes ∨ i ≠ k) :
    (w.pops.set i p')[k]?.map (·.attributes) = attrsAt k w := by
  by_cases hi : i = k
  · subst hi
    rw [attrsAt, hp, List.getElem?_set_self (List.getElem?_eq_some_iff.1 hp).1]
    simp only [Option.map_some, h.resolve_right (by simp)]
  · rw [attrsAt, List.getElem?_set_ne hi]

theorem KeepsAttrs.createRelationship (pop : Nat) (name : String) :
    KeepsAttrs k (Circus.createRelationship env pop name none) := by
  intro w x w' h
  obtain ⟨p, y, s, -, hp, -, rfl⟩ := createRelationship_eq_ok h
  exact attrs_set hp (.inl rfl)

theorem KeepsAttrs.createConstant {pop : Nat} (hp : pop ≠ k) (name : String) (v : Cell) :
    KeepsAttrs k (Snd.createConstant pop name v : Act (World σ γ) Unit) := by
  intro w x w' h
  rw [Snd.createConstant] at h
  obtain ⟨p, w1, h1, h⟩ := Act.bind_eq_ok.1 h
  obtain ⟨hq, rfl⟩ := getPop_eq_ok.1 h1
  obtain ⟨p', w2, h2, h⟩ := Act.bind_eq_ok.1 h
  obtain ⟨-, rfl⟩ := Act.ofPy_eq_ok.1 h2
  rw [setPop_eq_ok] at h
  subst h
  exact attrs_set hq (.inr hp)

/-- what an attribute drawn from a generator holds -/
theorem createDrawn_attrs {pop : Nat} {name : String} {g : GenRef} {w w' : World σ γ} {u : Unit}
    (h : Snd.createDrawn env pop name g w = .ok u w') : ∃ p a values, w.pops[pop]? = some p ∧
      (p.size = 0 ∧ values = [] ∨ ∃ w1, World.generate env g (p.size : Rat) w = .ok values w1) ∧
      Attribute.new p.size p.ids values = .ok a ∧
      w'.pops = w.pops.set pop { p with attributes := p.attributes.set name a } := by
  rw [Snd.createDrawn] at h
  obtain ⟨p, w1, h1, h⟩ := Act.bind_eq_ok.1 h
  obtain ⟨hp, rfl⟩ := getPop_eq_ok.1 h1
  obtain ⟨vs, w2, hv, hp2, h⟩ : ∃ (vs : List Cell) (w2 : World σ γ),
      (p.size = 0 ∧ vs = [] ∨ ∃ w1, World.generate env g (p.size : Rat) w = .ok vs w1) ∧ w2.pops = w.pops ∧
      (do let p ← Act.ofPy (p.createAttribute name vs); setPop pop p : Act (World σ γ) Unit) w2 =
        .ok u w' := by
    split at h
    · rename_i hz
      exact ⟨_, w, .inl ⟨hz, rfl⟩, rfl, h⟩
    · obtain ⟨vs, w2, h2, h⟩ := Act.bind_eq_ok.1 h
      exact ⟨vs, w2, .inr ⟨w2, h2⟩, generate_pops h2, h⟩
  obtain ⟨p', w3, h3, h⟩ := Act.bind_eq_ok.1 h
  obtain ⟨h4, rfl⟩ := Act.ofPy_eq_ok.1 h3
  rw [setPop_eq_ok] at h
  subst h
  rw [Population.createAttribute] at h4
  obtain ⟨a, h5, h4⟩ := bind_eq_ok.1 h4
  cases h4
  exact ⟨p, a, vs, hp, hv, h5, by simp only [hp2]⟩

theorem KeepsAttrs.createDrawn {pop : Nat} (hp : pop ≠ k) (name : String) (g : GenRef) :
    KeepsAttrs k (Snd.createDrawn env pop name g) := by
  intro w x w' h
  obtain ⟨p, a, vs, h1, -, -, h2⟩ := createDrawn_attrs h
  rw [attrsAt, h2]
  exact attrs_set h1 (.inr hp)

theorem KeepsAttrs.fillStock (pop rel : Nat) (items : List Val) : KeepsAttrs k (Snd.fillStock env pop rel items) :=
  (KeepsAttrs.getPop _).bind fun _ => KeepsAttrs.drawSeed.bind fun _ => (KeepsAttrs.ofPy _).bind fun _ =>
    .addRelations _ _ _ _

/-- a new population leaves the others -/
theorem createPopulation_attrs {c c' : Circus σ γ} {name : String} {init : PopInit} {i : Nat}
    (h : createPopulation env name init c = .ok i c') (hk : k < c.world.pops.length) :
    attrsAt k c'.world = attrsAt k c.world := by
  rcases createPopulation_cases (env := env) name init c with ⟨-, he⟩ | ⟨-, ⟨e, w, -, -, he⟩ |
    ⟨p, w, h1, h2, he⟩⟩
  · rw [he] at h; cases h
  · rw [he] at h; cases h
  · rw [he] at h
    cases h
    simp only [World.objects, Prod.mk.injEq] at h2
    simp only [attrsAt, h2.2.1, List.getElem?_append_left hk]

/-- a new population has no attributes -/
theorem newPopulation_attrs {c c' : Circus σ γ} {name : String} {g : GenRef} {n i : Nat}
    (h : createPopulation env name (.generated g n) c = .ok i c') :
    attrsAt c.world.pops.length c'.world = some [] := by
  rcases createPopulation_cases (env := env) name (.generated g n) c with ⟨-, he⟩ | ⟨-, ⟨e, w, -, -, he⟩ |
    ⟨p, w, h1, h2, he⟩⟩
  · rw [he] at h; cases h
  · rw [he] at h; cases h
  · rw [he] at h
    cases h
    simp only [World.objects, Prod.mk.injEq] at h2
    simp only [attrsAt, h2.2.1, List.getElem?_append_right (Nat.le_refl _), Nat.sub_self]
    have hnew : ∀ {ids : List Val} {q : Population}, Population.ofIds ids n = .ok q → q.attributes = [] := by
      intro ids q hq
      rw [Population.ofIds] at hq
      split at hq
      · cases hq; rfl
      · cases hq
    simp only [newPopulation] at h1
    split at h1
    · obtain ⟨h3, rfl⟩ := Act.ofPy_eq_ok.1 h1
      simp only [Population.new, Population.ofIds, if_true, List.nodup_nil] at h3
      cases h3
      rfl
    · rename_i hn
      obtain ⟨cells, w1, h4, h1⟩ := Act.bind_eq_ok.1 h1
      obtain ⟨ids, w2, h5, h1⟩ := Act.bind_eq_ok.1 h1
      obtain ⟨h5', rfl⟩ := Act.ofPy_eq_ok.1 h5
      obtain ⟨h6, rfl⟩ := Act.ofPy_eq_ok.1 h1
      simp only [Population.new, if_neg hn] at h6
      simp [hnew h6]

end

variable {k : Nat}

theorem addGenerator_pops {g : γ} {w w' : World σ γ} {r : GenRef} (h : addGenerator g w = .ok r w') :
    w'.pops = w.pops := by
  rw [addGenerator] at h
  injection h with _ h
  rw [← h]

theorem seeded_pops {mk : Int → γ} {w w' : World σ γ} {r : GenRef} (h : seeded env mk w = .ok r w') :
    w'.pops = w.pops := by
  rw [seeded] at h
  obtain ⟨x, w1, h1, h⟩ := Act.bind_eq_ok.1 h
  obtain ⟨s, -, rfl⟩ := drawSeed_eq_ok h1
  exact (addGenerator_pops h :)

theorem createPopulation_at {c c' : Circus σ γ} {name : String} {init : PopInit} {i : Nat}
    (h : createPopulation env name init c = .ok i c') : i = c.world.pops.length := by
  rcases createPopulation_cases (env := env) name init c with ⟨-, he⟩ | ⟨-, ⟨e, w, -, -, he⟩ |
    ⟨p, w, -, -, he⟩⟩
  · rw [he] at h; cases h
  · rw [he] at h; cases h
  · rw [he] at h
    cases h
    rfl

theorem createDealers_attrs {p : Params} {g : Parts γ} {c c' : Circus σ γ} {d : Nat}
    (h : createDealers env p g c = .ok d c') : attrsAt c.world.pops.length c'.world = some [] := by
  rw [createDealers] at h
  obtain ⟨ig, c1, h1, h⟩ := Act.bind_eq_ok.1 h
  obtain ⟨i, c2, h2, h⟩ := Act.bind_eq_ok.1 h
  have e2 := newPopulation_attrs h2
  rw [addGenerator_pops (onWorld_circus h1)] at e2
  rw [← e2]
  exact ((KeepsAttrs.createRelationship _ _).bind fun _ => (KeepsAttrs.fillStock _ _ _).bind fun _ =>
    (KeepsAttrs.addRelations _ _ _ _).bind fun _ => .pure _) _ _ _ (onWorld_circus h)

theorem createAgents_attrs {p : Params} {g : Parts γ} {c c' : Circus σ γ} {d : Nat}
    (h : createAgents env p g c = .ok d c') (hk : k < c.world.pops.length) :
    attrsAt k c'.world = attrsAt k c.world := by
  rw [createAgents] at h
  obtain ⟨ig, c1, h1, h⟩ := Act.bind_eq_ok.1 h
  obtain ⟨i, c2, h2, h⟩ := Act.bind_eq_ok.1 h
  have hlen := addGenerator_pops (onWorld_circus h1)
  have e2 := createPopulation_attrs (k := k) h2 (by rw [hlen]; exact hk)
  have hi : i ≠ k := by rw [createPopulation_at h2, hlen]; omega
  rw [attrsAt, attrsAt, hlen] at e2
  refine .trans ?_ e2
  exact ((KeepsAttrs.createRelationship _ _).bind fun _ => (KeepsAttrs.seeded _).bind fun _ =>
    (KeepsAttrs.createDrawn hi _ _).bind fun _ => .pure _) _ _ _ (onWorld_circus h)

theorem connectAgents_attrs {p : Params} {g : Parts γ} {a d : Nat} :
    KeepsAttrs k (connectAgents env p g a d) :=
  (KeepsAttrs.ofPy _).bind fun _ => (KeepsAttrs.addGenerator _).bind fun _ => (KeepsAttrs.getPop _).bind fun _ =>
    (KeepsAttrs.getPop _).bind fun _ => KeepsAttrs.drawSeed.bind fun _ => (KeepsAttrs.ofPy _).bind fun _ =>
    (KeepsAttrs.createRelationship _ _).bind fun _ => (KeepsAttrs.generate _ _).bind fun _ =>
    (KeepsAttrs.ofPy _).bind fun _ => (KeepsAttrs.addRelations _ _ _ _).bind fun _ => .addRelations _ _ _ _

theorem addPurchases_attrs {g : Parts γ} {fmt : Int → Cell} {a d : Nat} :
    KeepsAttrs k (addPurchases env g fmt a d) :=
  (KeepsAttrs.seeded _).bind fun _ => (KeepsAttrs.seeded _).bind fun _ => (KeepsAttrs.createStory _).bind fun _ =>
    (KeepsAttrs.relNamed _ _).bind fun _ => (KeepsAttrs.relNamed _ _).bind fun _ =>
    (KeepsAttrs.relNamed _ _).bind fun _ => .pure _

theorem addBulk_attrs {g : Parts γ} {fmt : Int → Cell} {a d : Nat} :
    KeepsAttrs k (addBulk env g fmt a d) :=
  (KeepsAttrs.seeded _).bind fun _ => (KeepsAttrs.createStory _).bind fun _ =>
    (KeepsAttrs.relNamed _ _).bind fun _ => (KeepsAttrs.relNamed _ _).bind fun _ =>
    (KeepsAttrs.relNamed _ _).bind fun _ => (KeepsAttrs.storyNamed _).bind fun _ => .pure _

theorem addHolidays_attrs {g : Parts γ} {fmt : Int → Cell} {a : Nat} :
    KeepsAttrs k (addHolidays env g fmt a) :=
  (KeepsAttrs.seeded _).bind fun _ => (KeepsAttrs.seeded _).bind fun _ => (KeepsAttrs.seeded _).bind fun _ =>
    (KeepsAttrs.createStory _).bind fun _ => (KeepsAttrs.createStory _).bind fun _ =>
    (KeepsAttrs.storyNamed _).bind fun _ => .pure _

theorem addReviews_attrs {g : Parts γ} {fmt : Int → Cell} {c c' : Circus σ γ} {a : Nat}
    {ops : List (Op (World σ γ))} (h : addReviews env g fmt a c = .ok ops c') (hk : k < c.world.pops.length) :
    attrsAt k c'.world = attrsAt k c.world := by
  rw [addReviews] at h
  obtain ⟨t, c1, h1, h⟩ := Act.bind_eq_ok.1 h
  obtain ⟨y, c2, h2, h⟩ := Act.bind_eq_ok.1 h
  obtain ⟨i, c3, h3, h⟩ := Act.bind_eq_ok.1 h
  have hlen := (seeded_pops (onWorld_circus h2)).trans (seeded_pops (onWorld_circus h1))
  have e2 := createPopulation_attrs (k := k) h3 (by rw [hlen]; exact hk)
  have hi : i ≠ k := by rw [createPopulation_at h3, hlen]; omega
  rw [attrsAt, attrsAt, hlen] at e2
  refine .trans ?_ e2
  exact ((KeepsAttrs.createConstant hi _ _).bind fun _ => (KeepsAttrs.createConstant hi _ _).bind fun _ =>
    (KeepsAttrs.createConstant hi _ _).bind fun _ => (KeepsAttrs.createConstant hi _ _).bind fun _ =>
    (KeepsAttrs.createStory _).bind fun _ => (KeepsAttrs.addGenerator _).bind fun _ =>
    (KeepsAttrs.seeded _).bind fun _ => .pure _) _ _ _ (onWorld_circus h)

/-- the first samples of a generator made from a seed -/
theorem seeded_generate {mk : Int → γ} {w w1 w' : World σ γ} {r : GenRef} {n : Rat} {values : List Cell}
    (h : seeded env mk w = .ok r w1) (hg : World.generate env r n w1 = .ok values w') :
    ∃ seed a', env.sem.generate (mk seed) n = .ok (values, a') := by
  rw [seeded] at h
  obtain ⟨seed, w2, h1, h⟩ := Act.bind_eq_ok.1 h
  rw [addGenerator] at h
  injection h with hr hw
  subst hr
  rw [World.generate, World.call] at hg
  obtain ⟨g, w3, h3, hg⟩ := Act.bind_eq_ok.1 hg
  obtain ⟨h5, rfl⟩ := getGen_eq_ok.1 h3
  rw [← hw] at h5
  simp only [World.gens, List.getElem?_append_right (Nat.le_refl _), Nat.sub_self, List.getElem?_cons_zero,
    Option.some.injEq] at h5
  subst h5
  obtain ⟨⟨v, g'⟩, w4, h4, hg⟩ := Act.bind_eq_ok.1 hg
  obtain ⟨h6, -⟩ := Act.ofPy_eq_ok.1 h4
  obtain ⟨u, w5, -, hg⟩ := Act.bind_eq_ok.1 hg
  obtain ⟨rfl, -⟩ := Act.pure_eq_ok.1 hg
  exact ⟨seed, g', h6⟩

/-- what the generators of the sizes of bulk purchases give -/
def Sizes (env : Env σ γ) (mk : Int → γ) (values : List Cell) : Prop :=
  values = [] ∨ ∃ seed n a', env.sem.generate (mk seed) n = .ok (values, a')

/-- the distributors of the dealers, and the sizes of their purchases -/
theorem connectDealers_attrs {g : Parts γ} {w w' : World σ γ} {a d : Nat} {u : Unit}
    {R : List (Relationship σ)} {P : List (List Val × Nat × Dict String Nat)}
    {S : List (String × String × List Val × GenRef)} {T : List γ} (hs : Shape w R P S T) (hT : T.length = 2)
    (h0 : attrsAt a w = some []) (h : connectDealers env g a d w = .ok u w') :
    ∃ c r, ∃ asg : List Val, P[a]? = some c ∧ asg.length = c.2.1 ∧ Relationship.Reachable env.R r ∧
      (c.1.length = c.2.1 → Filled env r (c.1.zip asg)) ∧
      (∃ at_ values, Sizes env g.bulkSizes values ∧ attrsAt a w' = some [("BULK_BUY_SIZE", at_)] ∧
        Attribute.new c.2.1 c.1 values = .ok at_) ∧
      Shape w' (R ++ [r]) (P.set a (c.1, c.2.1, c.2.2.set "DISTRIBUTOR" R.length)) S T := by
  rw [connectDealers] at h
  obtain ⟨rel, w6, h6, h⟩ := Act.bind_eq_ok.1 h
  have a6 := KeepsAttrs.createRelationship (k := a) _ _ _ _ _ h6
  obtain ⟨c, x, hc, rfl, s6⟩ := createRelationship_shape hs h6
  obtain ⟨seed, w4, h4, h⟩ := Act.bind_eq_ok.1 h
  have a4 := KeepsAttrs.drawSeed (k := a) _ _ _ h4
  have s4 := drawSeed_shape s6 h4
  obtain ⟨pa, w3, h3, h⟩ := Act.bind_eq_ok.1 h
  obtain ⟨-, rfl⟩ := getPop_eq_ok.1 h3
  obtain ⟨pd, w3, h3, h⟩ := Act.bind_eq_ok.1 h
  obtain ⟨hpd, rfl⟩ := getPop_eq_ok.1 h3
  have hpd := s4.pop hpd
  rw [List.getElem?_set_self (List.getElem?_eq_some_iff.1 hc).1] at hpd
  injection hpd with hpd
  simp only [popCore, Prod.mk.injEq] at hpd
  obtain ⟨⟨idx, st⟩, w5, h5, h⟩ := Act.bind_eq_ok.1 h
  obtain ⟨hch, rfl⟩ := Act.ofPy_eq_ok.1 h5
  obtain ⟨asg, w5, h5, h⟩ := Act.bind_eq_ok.1 h
  obtain ⟨hnth, rfl⟩ := Act.ofPy_eq_ok.1 h5
  obtain ⟨u1, w9, h9, h⟩ := Act.bind_eq_ok.1 h
  have a9 := KeepsAttrs.addRelations (k := a) _ _ _ _ _ _ _ h9
  obtain ⟨r1, r2, k1, k2, s9⟩ := addRelations_shape s4 h9
  obtain ⟨bg, w10, h10, h⟩ := Act.bind_eq_ok.1 h
  have a10 := KeepsAttrs.seeded (k := a) _ _ _ _ h10
  obtain ⟨hfar, s10⟩ := seeded_far s9 hT h10
  have s11 := createDrawn_shape hfar s10 h
  rw [List.getElem?_append_right (Nat.le_refl _), Nat.sub_self] at k1
  cases k1
  have hlen : asg.length = c.2.1 := by
    rw [← (mapM_ok_iff.1 hnth).length_eq, hpd.2.1]
    rw [Rng.choice] at hch
    split at hch
    · cases hch
    · injection hch with hch
      have := env.R.randint_length (env.R.seed seed) pa.ids.length pd.size
      rw [hch] at this
      exact this
  refine ⟨c, r2, asg, hc, hlen, ?_, fun hcl => ?_, ?_, by simpa using s11⟩
  · have k3 : AddCall.exec (Relationship.new env.R x) (.relations pd.ids asg (.scalar 1), env.orders) = .ok r2 := k2
    exact reachable_addCall env.R (.new x) k3
  · have := filled_add (filled_new x) (by rw [← hpd.1, hlen, hcl]) k2
    rw [← hpd.1] at this
    rwa [List.nil_append] at this
  · obtain ⟨p, at_, values, q1, q2, q3, q4⟩ := createDrawn_attrs h
    have hp := s10.pop q1
    rw [List.getElem?_set_self (List.getElem?_eq_some_iff.1 hc).1] at hp
    injection hp with hp
    simp only [popCore, Prod.mk.injEq] at hp
    refine ⟨at_, values, ?_, ?_, by rw [hp.1, hp.2.1]; exact q3⟩
    · rcases q2 with ⟨-, hq⟩ | ⟨w1, hq⟩
      · exact .inl hq
      · obtain ⟨sd, a', hg⟩ := seeded_generate h10 hq
        exact .inr ⟨sd, _, a', hg⟩
    · have : p.attributes = [] := by
        have e := a10.trans (a9.trans (a4.trans (a6.trans h0)))
        rw [attrsAt, q1] at e
        exact Option.some.inj e
      rw [attrsAt, q4, List.getElem?_set_self (List.getElem?_eq_some_iff.1 q1).1, this]
      rfl

theorem Shape.lengthPops {w : World σ γ} {R : List (Relationship σ)}
    {P : List (List Val × Nat × Dict String Nat)} {S : List (String × String × List Val × GenRef)} {T : List γ}
    (hs : Shape w R P S T) : w.pops.length = P.length := by
  rw [← hs.pops, List.length_map]

/-- the dealers of the built circus: their distributors, and the sizes of their purchases -/
theorem build_dealers {p : Params} {g : Parts γ} {fmt : Int → Cell} {c c' : Circus σ γ}
    {chains : List (List (Op (World σ γ)))} (hs : Shape c.world [] [] [] [])
    (h : build env p g fmt c = .ok chains c') :
    ∃ pop r4 at_ values, ∃ asg : List Val, c'.world.pops[1]? = some pop ∧ c'.world.rels[4]? = some r4 ∧
      pop.size = p.nDealers ∧ pop.attributes = [("BULK_BUY_SIZE", at_)] ∧
      Attribute.new p.nDealers pop.ids values = .ok at_ ∧ Sizes env g.bulkSizes values ∧
      asg.length = p.nDealers ∧ Relationship.Reachable env.R r4 ∧ (pop.ids.length = p.nDealers → Filled env r4 (pop.ids.zip asg)) := by
  rw [build] at h
  obtain ⟨⟨d, sg⟩, c1, h1, h⟩ := Act.bind_eq_ok.1 h
  obtain ⟨r0, distIds, n, sims, T, owners0, rfl, rfl, nd0, hfd, a1, a2, a3, s1⟩ := createDistributors_shape hs h1
  have hT : T.length = 2 := by
    obtain ⟨_, _, _, rfl, -⟩ := hfd
    rfl
  dsimp only at h
  obtain ⟨op0, c2, h2, h⟩ := Act.bind_eq_ok.1 h
  obtain ⟨rfl, s2⟩ := addRestock_shape s1 rfl rfl (onWorld_circus h2)
  obtain ⟨dl, c3, h3, h⟩ := Act.bind_eq_ok.1 h
  have k3 := createDealers_attrs h3
  rw [s2.lengthPops] at k3
  obtain ⟨r1, dealerIds, owners1, rfl, nd1, hd1, b1, b2, b3, s3⟩ := createDealers_shape s2 hT h3
  obtain ⟨ag, c4, h4, h⟩ := Act.bind_eq_ok.1 h
  have k4 := (createAgents_attrs (k := 1) h4 (by rw [s3.lengthPops]; simp)).trans k3
  obtain ⟨r2, agentIds, rfl, nd2, hd2, e1, s4⟩ := createAgents_shape s3 hT h4
  obtain ⟨u, c5, h5, h⟩ := Act.bind_eq_ok.1 h
  have k5 := (connectAgents_attrs _ _ _ (onWorld_circus h5)).trans k4
  obtain ⟨ca, r3, hca, s5⟩ := connectAgents_shape s4 hT (onWorld_circus h5)
  cases hca
  obtain ⟨u, c6, h6, h⟩ := Act.bind_eq_ok.1 h
  obtain ⟨cd, r4, asg, hcd, q1, q0, q2, ⟨at_, values, q3, k6, q4⟩, s6⟩ :=
    connectDealers_attrs s5 hT k5 (onWorld_circus h6)
  cases hcd
  obtain ⟨op1, c7, h7, h⟩ := Act.bind_eq_ok.1 h
  have k7 := (addPurchases_attrs _ _ _ (onWorld_circus h7)).trans k6
  obtain ⟨t1, f1, rfl, s7⟩ := addPurchases_shape (i := 3) (j := 1) (k := 2) s6 hT rfl rfl rfl rfl rfl (onWorld_circus h7)
  obtain ⟨op2, c8, h8, h⟩ := Act.bind_eq_ok.1 h
  have k8 := (addBulk_attrs _ _ _ (onWorld_circus h8)).trans k7
  obtain ⟨t2, f2, rfl, s8⟩ := addBulk_shape (i := 4) (j := 0) (k := 1) (l := 0) s7 hT rfl rfl rfl rfl rfl rfl (onWorld_circus h8)
  obtain ⟨⟨op3, op4⟩, c9, h9, h⟩ := Act.bind_eq_ok.1 h
  have k9 := (addHolidays_attrs _ _ _ (onWorld_circus h9)).trans k8
  obtain ⟨t3, f3, e34, s9⟩ := addHolidays_shape (l := 1) s8 hT rfl rfl (onWorld_circus h9)
  cases e34
  dsimp only at h
  obtain ⟨op5, c10, h10, h⟩ := Act.bind_eq_ok.1 h
  have k10 := (addReviews_attrs (k := 1) h10 (by rw [s9.lengthPops]; simp)).trans k9
  obtain ⟨t5, rg, xg, rc, f5, f6, f7, rfl, s10⟩ := addReviews_shape s9 hT rfl h10
  obtain ⟨rfl, rfl⟩ := Act.pure_eq_ok.1 h
  rw [attrsAt, Option.map_eq_some_iff] at k10
  obtain ⟨pop, hp, hat⟩ := k10
  have hcore := s10.pop hp
  simp only [List.length_cons, List.length_nil, List.set_cons_succ, List.set_cons_zero, List.cons_append,
    List.nil_append, List.getElem?_cons_succ, List.getElem?_cons_zero, Option.some.injEq, popCore,
    Prod.mk.injEq] at hcore
  refine ⟨pop, r4, at_, values, asg, hp, ?_, hcore.2.1.symm, hat, ?_, q3, q1, q0, ?_⟩
  · rw [s10.rels]
    rfl
  · rw [← hcore.1]
    exact q4
  · rw [← hcore.1]
    exact q2

end Snd
end Trumania
