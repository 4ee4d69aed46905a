import Verif.Proofs.SlidesBuild
import Verif.Proofs.Kinds
import Verif.Proofs.TypedStory
import Verif.Props.Creation

/-! Helper lemmas: the steps of the construction of a circus that do not raise. -/

namespace Trumania
namespace Builds
open Spec World Circus Cdr
open Shop (Site onWorld_ok)
open Hello (Weighted Lot)
variable {σ : Type} {env : Env σ (AnyGen σ)} {w w' : World σ (AnyGen σ)} {c c' : Circus σ (AnyGen σ)}
  {R : List (List (Val × Val × Rat))} {P : List Population} {T : List (Story σ)} {k : Int × Int}

/-- an action that does not raise -/
def Ends {W α : Type} (a : Act W α) (w : W) : Prop := ∃ x w', a w = .ok x w'

theorem Ends.bind {W α β : Type} {a : Act W α} {f : α → Act W β} {w : W} (h : Ends a w)
    (hf : ∀ x w', a w = .ok x w' → Ends (f x) w') : Ends (a >>= f) w := by
  obtain ⟨x, w1, h1⟩ := h
  obtain ⟨y, w2, h2⟩ := hf x w1 h1
  exact ⟨y, w2, by rw [Act.bind_ok h1]; exact h2⟩

theorem Ends.pure {W α : Type} {x : α} {w : W} : Ends (Pure.pure x : Act W α) w := ⟨x, w, rfl⟩

theorem Ends.ofPy {W α : Type} {x : Py α} {y : α} {w : W} (h : x = .ok y) : Ends (Act.ofPy x) w := ⟨y, w, Act.ofPy_ok h w⟩

theorem Ends.onWorld {α : Type} {a : Act (World σ (AnyGen σ)) α} (h : Ends a c.world) : Ends (onWorld a) c := by
  obtain ⟨x, w1, h1⟩ := h
  exact ⟨x, { c with world := w1 }, by rw [Circus.onWorld, h1]⟩

theorem ends_drawSeed (w : World σ (AnyGen σ)) : Ends (drawSeed env) w := by
  obtain ⟨x, s, -, h⟩ := drawSeed_ok (env := env) w
  exact ⟨x, _, h⟩

theorem ends_addGenerator (g : AnyGen σ) (w : World σ (AnyGen σ)) : Ends (Snd.addGenerator g) w := ⟨_, _, rfl⟩

theorem ends_seeded (mk : Int → AnyGen σ) (w : World σ (AnyGen σ)) : Ends (Snd.seeded env mk) w :=
  (ends_drawSeed w).bind fun _ _ _ => ends_addGenerator _ _

theorem ends_getPop {i : Nat} {p : Population} (h : w.pops[i]? = some p) : Ends (World.getPop i) w :=
  ⟨p, w, getPop_eq_ok.2 ⟨h, rfl⟩⟩

/-- the values that a generator gives -/
theorem generate_gives {r : GenRef} {a : AnyGen σ} {V : Cell → Prop} (hb : Began env w r a) (ha : AlwaysGives env a V)
    (n : Nat) : ∃ cells w', World.generate env r (n : Rat) w = .ok cells w' ∧ cells.length = n ∧ ∀ c ∈ cells, V c := by
  obtain ⟨j, x, rfl, hx, hd⟩ := hb
  obtain ⟨cells, x', e, hl, hV⟩ := ha x hd n
  exact ⟨cells, _, generate_ref_ok.2 ⟨x, x', hx, e, rfl⟩, hl, hV⟩

theorem new_ends {p : Population} {values : List Cell} (hl : p.ids.length = p.size)
    (hv : p.size ≠ 0 → values.length = p.size) : ∃ a, Attribute.new p.size p.ids values = .ok a := by
  rw [Attribute.new]
  by_cases h0 : p.size = 0
  · rw [if_pos h0]
    exact ⟨_, rfl⟩
  · rw [if_neg h0, if_neg (by rw [hv h0, hl]; simp)]
    exact ⟨_, rfl⟩

theorem ends_createDrawn {pop : Nat} {p : Population} {name : String} {r : GenRef} {a : AnyGen σ} {V : Cell → Prop}
    (hp : w.pops[pop]? = some p) (hl : p.ids.length = p.size) (hb : Began env w r a) (ha : AlwaysGives env a V) :
    Ends (Snd.createDrawn env pop name r) w := by
  rw [Snd.createDrawn]
  refine (ends_getPop hp).bind fun p' w1 h1 => ?_
  obtain ⟨e, rfl⟩ := getPop_eq_ok.1 h1
  rw [hp] at e
  cases e
  have key : ∀ (values : List Cell) (w2 : World σ (AnyGen σ)), (p.size ≠ 0 → values.length = p.size) →
      Ends (Act.ofPy (p.createAttribute name values) >>= fun p => World.setPop pop p) w2 := by
    intro values w2 hv
    obtain ⟨a, ha⟩ := new_ends hl hv
    exact (Ends.ofPy (by rw [Population.createAttribute, ha]; rfl)).bind fun _ _ _ => ⟨(), _, setPop_eq_ok.2 rfl⟩
  dsimp only
  split
  · rename_i h0
    exact Ends.pure.bind fun values w2 _ => key values w2 fun h => absurd h0 h
  · obtain ⟨cells, w2, e, hl', -⟩ := generate_gives hb ha p.size
    refine Ends.bind ⟨cells, w2, e⟩ fun values w3 e' => ?_
    rw [e] at e'
    cases e'
    exact key _ _ fun _ => hl'

theorem ends_createRelationship {pop : Nat} {p : Population} {name : String} (hp : w.pops[pop]? = some p) :
    Ends (createRelationship env pop name none) w := by
  obtain ⟨x, s, -, h⟩ := createRelationship_ok (env := env) name hp
  exact ⟨_, _, h⟩

theorem ends_addRelations {i : Nat} {f t : List Val} {ws : Weights} {L : List (Val × Val × Rat)}
    (hs : Lot env R P T k w) (hL : R[i]? = some L) (hl : LengthsOk f t ws) : Ends (addRelations env i f t ws) w := by
  obtain ⟨r, hr, hw⟩ := forall₂_at' hs.rels hL
  obtain ⟨r', h, -⟩ := add_relations_spec env.orders hw.1.gwf hl
  rw [addRelations]
  refine Ends.bind ⟨r, w, getRel_eq_ok.2 ⟨hr, rfl⟩⟩ fun r1 w1 h1 => ?_
  obtain ⟨e, rfl⟩ := getRel_eq_ok.1 h1
  rw [hr] at e
  cases e
  exact (Ends.ofPy h).bind fun _ _ _ => ⟨(), _, setRel_eq_ok.2 rfl⟩

theorem lengthsOk_scalar {f t : List Val} {q : Rat} (h : f.length = t.length) : LengthsOk f t (.scalar q) := by
  refine ⟨h.le, ?_⟩
  simp [Weights.expand]

/-- ids that a generator gives -/
theorem asVals {cells : List Cell} {V : Val → Prop} (h : ∀ c ∈ cells, IdIn V c) :
    ∃ l, cells.mapM Cell.asVal = .ok l ∧ l.length = cells.length := by
  obtain ⟨l, hl⟩ := mapM_isOk (f := Cell.asVal) (l := cells) fun c hc => by
    obtain ⟨v, rfl, -⟩ := h c hc
    exact ⟨v, rfl⟩
  exact ⟨l, hl, (mapM_ok_iff.1 hl).length_eq.symm⟩

/-- a constant, a generator, or a function of what a generator gives, whose values are all in `V` -/
inductive Source (env : Env σ (AnyGen σ)) (w : World σ (AnyGen σ)) (V : Cell → Prop) : GenRef → Prop where
  | const {v : Cell} (h : V v) : Source env w V (.constant v)
  | ref {r : GenRef} {a : AnyGen σ} (hb : Began env w r a) (ha : AlwaysGives env a V) : Source env w V r
  | mapped {r : GenRef} {f : Cell → Py Cell} {a : AnyGen σ} {U : Cell → Prop} (hb : Began env w r a)
      (ha : AlwaysGives env a U) (hf : ∀ c, U c → ∃ v, f c = .ok v ∧ V v) : Source env w V (.mapped r f)

theorem Source.later {V : Cell → Prop} {r : GenRef} (h : Source env w V r)
    (hk : ∀ {r : GenRef} {g : AnyGen σ}, Began env w r g → Began env w' r g) : Source env w' V r := by
  cases h with
  | const h => exact .const h
  | ref hb ha => exact .ref (hk hb) ha
  | mapped hb ha hf => exact .mapped (hk hb) ha hf

theorem Source.gives {V : Cell → Prop} {r : GenRef} (h : Source env w V r) (n : Nat) :
    ∃ (cells : List Cell) (w' : World σ (AnyGen σ)), World.generate env r (n : Rat) w = .ok cells w' ∧ cells.length = n ∧
      ∀ c ∈ cells, V c := by
  cases h with
  | @const v h =>
    refine ⟨List.replicate n v, w, ?_, by simp, fun c hc => ?_⟩
    · rw [World.generate, World.call, AnyGen.pyInt_natCast]
      simp
      rfl
    · rw [List.eq_of_mem_replicate hc]
      exact h
  | ref hb ha => exact generate_gives hb ha n
  | @mapped r f a U hb ha hf =>
    obtain ⟨cells, w', e, hl, hV⟩ := generate_gives hb ha n
    obtain ⟨l, hm⟩ := mapM_isOk (f := f) (l := cells) fun c hc => by
      obtain ⟨v, hv, -⟩ := hf c (hV c hc)
      exact ⟨v, hv⟩
    have h2 := mapM_ok_iff.1 hm
    refine ⟨l, w', ?_, by rw [← hl, h2.length_eq], fun c hc => ?_⟩
    · rw [World.generate, World.call]
      exact Act.bind_eq_ok.2 ⟨cells, w', e, Act.ofPy_ok hm _⟩
    · obtain ⟨x, hx, k⟩ := forall₂_exists_left h2 hc
      obtain ⟨v, hv, hvV⟩ := hf x (hV x hx)
      rw [hv] at k
      cases k
      exact hvV

/-- what is drawn are numbers -/
abbrev GivesNums (env : Env σ (AnyGen σ)) (w : World σ (AnyGen σ)) (r : GenRef) : Prop :=
  Source env w (fun c => ∃ q, c = .num q) r

/-- timers: a constant, or a generator that always answers -/
def GivesTimers (env : Env σ (AnyGen σ)) (w : World σ (AnyGen σ)) (r : GenRef) : Prop :=
  (∃ q : Rat, r = .constant (.num q)) ∨ ∃ a, Began env w r a ∧ AlwaysAnswers env a (fun c => ∃ q, c = .num q) IsAmount

theorem nums_ends {r : GenRef} (h : GivesNums env w r) (n : Nat) :
    ∃ (l : List Rat) (w' : World σ (AnyGen σ)), World.generate env r (n : Rat) w = .ok (l.map fun q => .scalar (.num q)) w' ∧ l.length = n := by
  obtain ⟨cells, w', e, hl, hV⟩ := h.gives n
  obtain ⟨l, h1, h2⟩ := asNums hV
  refine ⟨l, w', ?_, h2.trans hl⟩
  rw [e, numbers_eq_ok.1 h1]

theorem reset_ends {s : Story σ} {ids : List Val} (hn : ids.Nodup) (hs : Begins s ids fun _ => False)
    (ht : GivesTimers env w s.timerGen) : Ends (resetStory env s none) w := by
  let S : Sig (AnyGen σ) := ⟨0, w.gens.map (Descends env), [], [], []⟩
  rcases ht with ⟨q, hq⟩ | ⟨a, hb, ha⟩
  · have hf := story_fits (env := env) (S := S) hn hs (.inl ⟨_, hq⟩) (by rw [hq]; exact .constSeries (.inr ⟨q, rfl⟩))
    obtain ⟨s', u, e, -⟩ := hf.resetTimers (observe := fun u obs => .ok (obs.map fun _ => .num q, u)) (g := ())
      (I := fun _ => True) trivial (fun obs _ => ⟨_, (), rfl, trivial, by simp, fun c hc => by
        obtain ⟨x, -, rfl⟩ := List.mem_map.1 hc
        exact .inr ⟨q, rfl⟩⟩) (ids := none) (by simp)
    rw [resetStory, hq]
    exact (Ends.ofPy e).bind fun x _ _ => Ends.pure
  · have hf := story_fits (env := env) (S := S) hn hs (.inr (by obtain ⟨j, x, e, -⟩ := hb; exact ⟨j, e⟩))
      (genOk_answers rfl hb ha)
    obtain ⟨j, x, hj, hx, hd⟩ := hb
    obtain ⟨s', u, e, -⟩ := hf.resetTimers (observe := env.sem.observe) (g := x) (I := fun _ => True) trivial
      (fun obs ho => by
        obtain ⟨cells, x', k1, k2, k3⟩ := ha x hd obs ho
        exact ⟨cells, x', k1, trivial, k2, k3⟩) (ids := none) (by simp)
    rw [resetStory, hj]
    refine Ends.bind ⟨x, w, getGen_eq_ok.2 ⟨hx, rfl⟩⟩ fun x' w1 h1 => ?_
    obtain ⟨h2, rfl⟩ := getGen_eq_ok.1 h1
    rw [hx] at h2
    cases h2
    exact (Ends.ofPy e).bind fun y _ _ => Ends.bind ⟨(), _, setGen_eq_ok.2 rfl⟩ fun _ _ _ => Ends.pure

theorem ends_createStory {cfg : StoryConfig} {p : Population} (hp : w.pops[cfg.population]? = some p) (hn : p.ids.Nodup)
    (hl : p.ids.length = p.size) (hname : w.findStory cfg.name = none) (hst : cfg.states = none)
    (hact : GivesNums env w cfg.activity) (htim : GivesTimers env w cfg.timerGen) : Ends (World.createStory env cfg) w := by
  rw [World.createStory]
  refine Ends.bind (a := get) ⟨w, w, rfl⟩ fun w0 w1 h1 => ?_
  cases h1
  rw [hname]
  dsimp only
  refine (ends_getPop hp).bind fun p' w1 h1 => ?_
  obtain ⟨e, rfl⟩ := getPop_eq_ok.1 h1
  rw [hp] at e
  cases e
  refine Ends.bind ?_ fun s w2 _ => ⟨w2.stories.length, _, rfl⟩
  rw [World.newStory, hst]
  refine (Ends.ofPy (y := [(defaultState, (⟨cfg.activity, .constant (.num 1)⟩ : StateGens))]) rfl).bind fun states w1 h1 => ?_
  obtain ⟨h1, rfl⟩ := Act.ofPy_eq_ok.1 h1
  cases h1
  obtain ⟨acts, w1, e1, l1⟩ := nums_ends hact p.size
  obtain ⟨backs, w2, e2, l2⟩ := nums_ends (env := env) (w := w1) (r := .constant (.num 1)) (.const ⟨1, rfl⟩) p.size
  obtain ⟨ps, hps⟩ : ∃ ps, Story.addState p.ids (p.ids.map fun i => (i, [])) defaultState acts backs = .ok ps := by
    rw [Story.addState, if_neg (by rw [l1, l2, hl]; simp)]
    exact ⟨_, rfl⟩
  have hkeys : (p.ids.map fun i => (i, ([] : Dict Val StateParams))).map Prod.fst = p.ids := by
    simp [Function.comp_def]
  obtain ⟨-, -, hget⟩ := addState_get hn hkeys hps
  have hparams : storyParams env p.ids p.size [(defaultState, ⟨cfg.activity, .constant (.num 1)⟩)]
      (p.ids.map fun i => (i, [])) w = .ok ps w2 := by
    rw [storyParams, Act.bind_ok e1, Act.bind_ok e2, Act.bind_ok (Act.ofPy_ok (numbers_eq_ok.2 rfl) _),
      Act.bind_ok (Act.ofPy_ok (numbers_eq_ok.2 rfl) _), Act.bind_ok (Act.ofPy_ok hps _)]
    rfl
  refine Ends.bind ⟨ps, w2, hparams⟩ fun ps' w2' h2 => ?_
  rw [hparams] at h2
  cases h2
  rw [initialReset]
  split
  · refine reset_ends hn ⟨?_, fun i hi => ?_, fun i hi st hst => ?_⟩ ?_
    · simp [Story.ids, Function.comp_def]
    · show (Story.row? _ i).map (·.state) = _
      rw [initial_row hi _ rfl]
      rfl
    · obtain rfl : st = .str "default" := hst.resolve_right id
      obtain ⟨m, hm⟩ := List.mem_iff_getElem?.1 hi
      have hlt := (List.getElem?_eq_some_iff.1 hm).1
      have := hget m i _ _ hm (List.getElem?_eq_getElem (by omega)) (List.getElem?_eq_getElem (by omega)) (.str "default")
      rw [if_pos (show Val.str "default" = defaultState from rfl), paramAt, Option.bind_eq_some_iff] at this
      obtain ⟨d, h1, h2⟩ := this
      exact ⟨d, _, h1, h2⟩
    · rcases htim with h | ⟨a, hb, ha⟩
      · exact .inl h
      · exact .inr ⟨a, generate_began e2 (generate_began e1 hb), ha⟩
  · exact Ends.pure

theorem ends_choiceIn {g : Blog.Parts (AnyGen σ)} {pop : Nat} {p : Population} (hp : w.pops[pop]? = some p) :
    Ends (Blog.choiceIn env g pop) w := by
  rw [Blog.choiceIn]
  refine (ends_getPop hp).bind fun q w1 _ => ?_
  exact (Ends.ofPy rfl).bind fun _ _ _ => ends_seeded _ _

theorem ends_relNamed {pop i : Nat} {name : String} {p : Population} (hp : w.pops[pop]? = some p)
    (h : p.relationships.get? name = some i) : Ends (Snd.relNamed pop name) w := by
  rw [Snd.relNamed]
  refine (ends_getPop hp).bind fun q w1 h1 => ?_
  obtain ⟨e, rfl⟩ := getPop_eq_ok.1 h1
  rw [hp] at e
  cases e
  exact Ends.ofPy (y := i) (by rw [Population.getRelationship, Dict.get, h])

/-! ### Populations -/

theorem ends_createPopulation (hsem : env.sem = AnyGen.sem env.R) {name : String} {j n : Nat} {b : SeqGen}
    (hn : c.populations.get? name = none) (hg : c.world.gens[j]? = some (.seq b)) :
    Ends (createPopulation env name (.generated (.ref j) n)) c := by
  obtain ⟨i, c', -, h, -⟩ := C52_sequential_population (R := env.R) hsem (size := n) (fun i h => by
    rw [PopNamed, hn] at h
    cases h) hg
  exact ⟨i, c', h⟩

/-- the relationship of the quotes -/
theorem ends_addQuote (hsem : env.sem = AnyGen.sem env.R) {pop rel : Nat} {gen : Nat} {q : Rat} {a : AnyGen σ}
    {L : List (Val × Val × Rat)} {p : Population} {V : Val → Prop} (hp : P[pop]? = some p) (hsize : p.ids.length = p.size)
    (hs : Lot env R P T k w) (hL : R[rel]? = some L) (hb : Began env w (.ref gen) a) (ha : AlwaysGives env a (IdIn V)) :
    Ends (Blog.addQuote env pop rel (.ref gen) q) w := by
  have hp' : w.pops[pop]? = some p := by rw [hs.pops]; exact hp
  rw [Blog.addQuote]
  refine (ends_getPop hp').bind fun p' w1 h1 => ?_
  obtain ⟨e, rfl⟩ := getPop_eq_ok.1 h1
  rw [hp'] at e
  cases e
  obtain ⟨cells, w2, e2, hl2, hV⟩ := generate_gives hb ha p.size
  refine Ends.bind ⟨cells, w2, e2⟩ fun cells' w2' h2 => ?_
  rw [e2] at h2
  cases h2
  obtain ⟨l, hl, hll⟩ := asVals hV
  refine (Ends.ofPy hl).bind fun l' w3 h3 => ?_
  obtain ⟨h3, rfl⟩ := Act.ofPy_eq_ok.1 h3
  rw [hl] at h3
  cases h3
  exact ends_addRelations (Hello.lot_generate hs e2) hL (lengthsOk_scalar (by omega))

theorem addQuote_began {pop rel : Nat} {gen r : GenRef} {q : Rat} {a : AnyGen σ} {u : Unit} (hb : Began env w r a)
    (h : Blog.addQuote env pop rel gen q w = .ok u w') : Began env w' r a := by
  rw [Blog.addQuote] at h
  obtain ⟨p, v1, k1, h⟩ := Act.bind_eq_ok.1 h
  obtain ⟨-, rfl⟩ := getPop_eq_ok.1 k1
  obtain ⟨cells, v2, k2, h⟩ := Act.bind_eq_ok.1 h
  obtain ⟨tos, v3, k3, h⟩ := Act.bind_eq_ok.1 h
  obtain ⟨-, rfl⟩ := Act.ofPy_eq_ok.1 k3
  exact addRelations_began h (generate_began k2 hb)

theorem ends_quotes (hsem : env.sem = AnyGen.sem env.R) {pop rel : Nat} {gen : Nat} {weights : List Rat} {a : AnyGen σ}
    {L : List (Val × Val × Rat)} {p : Population} {V : Val → Prop} (hp : P[pop]? = some p) (hsize : p.ids.length = p.size)
    (hs : Lot env R P T k w) (hL : R[rel]? = some L) (hb : Began env w (.ref gen) a) (ha : AlwaysGives env a (IdIn V)) :
    Ends (Act.forEach (Blog.addQuote env pop rel (.ref gen)) weights) w := by
  induction weights generalizing w R L with
  | nil => exact Ends.pure
  | cons q weights ih =>
    rw [forEach_cons]
    refine (ends_addQuote hsem hp hsize hs hL hb ha).bind fun u w1 h1 => ?_
    obtain ⟨l, -, s1⟩ := Blog.addQuote_lot hsem hp hsize hs hL h1
    exact ih s1 (List.getElem?_set_self (List.getElem?_eq_some_iff.1 hL).1) (addQuote_began hb h1)

theorem ends_addQuotes (hsem : env.sem = AnyGen.sem env.R) {g : Blog.Parts (AnyGen σ)} {pop : Nat} {p : Population}
    {V : Val → Prop} (hp : P[pop]? = some p) (hsize : p.ids.length = p.size) (hs : Lot env R P T k w)
    (ha : ∀ seed, AlwaysGives env (g.quotes seed) (IdIn V)) : Ends (Blog.addQuotes env g pop) w := by
  rw [Blog.addQuotes]
  refine (ends_seeded _ _).bind fun gen w1 h1 => ?_
  have s1 := Hello.lot_seeded hs h1
  obtain ⟨-, rfl, seed, b1⟩ := Shop.after_seeded (env := env) h1
  refine (ends_createRelationship (by rw [s1.pops]; exact hp)).bind fun rel w2 h2 => ?_
  obtain ⟨p', hp', rfl, s2, -⟩ := Hello.lot_createRelationship s1 h2
  rw [hp] at hp'
  cases hp'
  exact ends_quotes hsem (p := { p with relationships := p.relationships.set "quotes" R.length })
    (List.getElem?_set_self (List.getElem?_eq_some_iff.1 hp).1) hsize s2
    (L := []) (by simp) (createRelationship_began h2 b1) (ha seed)

/-- weighted draws from a list -/
theorem gives_weighted (hsem : env.sem = AnyGen.sem env.R) {a : List Val} {p : List Rat} {s : σ} (ha : a ≠ [])
    (hl : p.length = a.length) (h0 : ∀ x ∈ p, 0 ≤ x) (h1 : p.sum = 1) :
    AlwaysGives env (.choice a (some p) s) (IdIn (· ∈ a)) := by
  intro x hx n
  obtain ⟨s', rfl⟩ := Shop.descends_choice hsem hx
  rw [hsem]
  have hn : (n : Rat).num.toNat = n := by rw [Rat.num_natCast]; simp
  obtain ⟨⟨is, s2⟩, hr⟩ := env.R.choiceP_isOk (s := s') (size := n) (p := p)
    (fun e => ha (List.length_eq_zero_iff.1 e)) hl h0 h1
  obtain ⟨-, -, -, hi⟩ := env.R.choiceP_ok hr
  have hlt : ∀ i ∈ is, i < a.length := fun i him => by
    obtain ⟨x, hx, -⟩ := hi i him
    have := (List.getElem?_eq_some_iff.1 hx).1
    omega
  obtain ⟨v, hv⟩ : ∃ v, fancy a is = .ok v := by
    rw [fancy]
    refine mapM_isOk fun i him => ⟨a[i]'(hlt i him), ?_⟩
    rw [List.getElem?_eq_getElem (hlt i him)]
  have e : AnyGen.generate env.R (.choice a (some p) s') (n : Rat) = .ok (v.map Cell.scalar, .choice a (some p) s2) := by
    refine (if_pos (natSize n)).trans (bind_eq_ok.2 ⟨(v, s2), ?_, rfl⟩)
    rw [hn]
    exact bind_eq_ok.2 ⟨(is, s2), hr, bind_eq_ok.2 ⟨v, hv, rfl⟩⟩
  refine ⟨_, _, e, AnyGen.C74_as_many_as_asked e, fun c hc => ?_⟩
  obtain ⟨x, hx, rfl⟩ := List.mem_map.1 hc
  refine ⟨x, rfl, ?_⟩
  rw [fancy] at hv
  obtain ⟨i, -, h⟩ := forall₂_exists_left (mapM_ok_iff.1 hv) hx
  split at h
  · rename_i h1
    cases h
    exact List.mem_of_getElem? h1
  · cases h

/-- draws from a list of numbers -/
theorem nums_of_list {a : AnyGen σ} {l : List Val} (ha : AlwaysGives env a (IdIn (· ∈ l))) (hl : ∀ v ∈ l, ∃ q, v = .num q) :
    AlwaysGives env a fun c => ∃ q, c = .num q := by
  intro x hx n
  obtain ⟨cells, x', e, k1, k2⟩ := ha x hx n
  refine ⟨cells, x', e, k1, fun c hc => ?_⟩
  obtain ⟨v, rfl, hv⟩ := k2 c hc
  obtain ⟨q, rfl⟩ := hl v hv
  exact ⟨q, rfl⟩

/-! ### The persons -/

theorem new_ends_ok (env : Env σ (AnyGen σ)) (name : String) (seed start step : Int) :
    ∃ c : Circus σ (AnyGen σ), Circus.new env.R name seed start step = .ok c := by
  obtain ⟨x, s, h⟩ := nextSeed_ok env.R (env.R.seed seed)
  exact ⟨_, by rw [Circus.new, h]; rfl⟩

theorem new_named {name : String} {seed start step : Int} (h : Circus.new env.R name seed start step = .ok c) (x : String) :
    c.populations.get? x = none := by
  rw [Circus.new] at h
  obtain ⟨⟨s1, s2⟩, -, h⟩ := bind_eq_ok.1 h
  cases h
  rfl

theorem seeded_pops {mk : Int → AnyGen σ} {r : GenRef} (h : Snd.seeded env mk w = .ok r w') : w'.pops = w.pops := by
  rw [Snd.seeded] at h
  obtain ⟨x, w1, h1, h2⟩ := Act.bind_eq_ok.1 h
  obtain ⟨s, -, rfl⟩ := drawSeed_eq_ok h1
  rw [Snd.addGenerator] at h2
  cases h2
  rfl

theorem seeded_kept {mk : Int → AnyGen σ} {r : GenRef} {j : Nat} {a : AnyGen σ} (h : Snd.seeded env mk w = .ok r w')
    (hj : w.gens[j]? = some a) : w'.gens[j]? = some a := by
  rw [Snd.seeded] at h
  obtain ⟨x, w1, h1, h2⟩ := Act.bind_eq_ok.1 h
  obtain ⟨s, -, rfl⟩ := drawSeed_eq_ok h1
  rw [Snd.addGenerator] at h2
  cases h2
  show (w.gens ++ [mk x])[j]? = _
  rw [List.getElem?_append_left (List.getElem?_eq_some_iff.1 hj).1]
  exact hj

/-- a population whose ids are as many as its size -/
def Sized (w : World σ (AnyGen σ)) (pop : Nat) : Prop := ∃ p, w.pops[pop]? = some p ∧ p.ids.length = p.size

theorem createDrawn_sized {pop : Nat} {name : String} {r : GenRef} {u : Unit} (hs : Sized w pop)
    (h : Snd.createDrawn env pop name r w = .ok u w') : Sized w' pop := by
  obtain ⟨p, a, values, hp, -, -, e⟩ := Snd.createDrawn_attrs h
  obtain ⟨q, hq, hl⟩ := hs
  rw [hp] at hq
  cases hq
  exact ⟨{ p with attributes := p.attributes.set name a },
    by rw [e]; exact List.getElem?_set_self (List.getElem?_eq_some_iff.1 hp).1, hl⟩

theorem createPopulation_sized (hsem : env.sem = AnyGen.sem env.R) {name : String} {j n i : Nat} {b : SeqGen}
    (hn : c.populations.get? name = none) (hg : c.world.gens[j]? = some (.seq b))
    (h : createPopulation env name (.generated (.ref j) n) c = .ok i c') : Sized c'.world i := by
  obtain ⟨i', c1, p, h1, -, hp, hs, -, hl, -⟩ := C52_sequential_population (R := env.R) hsem (size := n) (fun i h => by
    rw [PopNamed, hn] at h
    cases h) hg
  rw [h] at h1
  cases h1
  exact ⟨p, hp, hl.trans hs.symm⟩

theorem createPopulation_began {name : String} {j n i : Nat} {r : GenRef} {a : AnyGen σ} (hb : Began env c.world r a)
    (h : createPopulation env name (.generated (.ref j) n) c = .ok i c') : Began env c'.world r a := by
  rcases createPopulation_cases (env := env) name (.generated (.ref j) n) c with ⟨-, e⟩ | ⟨-, ⟨x, w1, -, -, e⟩ | ⟨p, w1, e1, -, e⟩⟩
  · rw [e] at h
    cases h
  · rw [e] at h
    cases h
  · rw [e] at h
    cases h
    rw [newPopulation] at e1
    refine Began.of_gens (w := w1) rfl ?_
    split at e1
    · obtain ⟨-, rfl⟩ := Act.ofPy_eq_ok.1 e1
      exact hb
    · obtain ⟨cells, w2, h2, e1⟩ := Act.bind_eq_ok.1 e1
      obtain ⟨ids, w3, h3, e1⟩ := Act.bind_eq_ok.1 e1
      obtain ⟨-, rfl⟩ := Act.ofPy_eq_ok.1 h3
      obtain ⟨-, rfl⟩ := Act.ofPy_eq_ok.1 e1
      exact generate_began h2 hb

theorem ends_slidePersons (hsem : env.sem = AnyGen.sem env.R) {n : Nat} {g : Blog.Parts (AnyGen σ)} {b : SeqGen}
    (hg : g.Usual b) {V1 V2 : Cell → Prop} (hnames : ∀ seed, AlwaysGives env (g.names seed) V1)
    (hages : ∀ seed, AlwaysGives env (g.ages seed) V2) {name : String} {seed start step : Int}
    (hnew : Circus.new env.R name seed start step = .ok c) : Ends (Slides.createPersons env n g) c := by
  rw [Slides.createPersons]
  refine (Ends.onWorld (ends_addGenerator _ _)).bind fun r1 c1 h1 => ?_
  obtain ⟨u1, h1', rfl⟩ := onWorld_ok h1
  obtain ⟨a1, rfl, g1⟩ := Shop.after_addGenerator (env := env) h1'
  have hgen : u1.gens[c.world.gens.length]? = some (.seq b) := by
    rw [g1, List.getElem?_append_right (le_refl _), Nat.sub_self, hg.persons]
    rfl
  have hnone : ({ c with world := u1 } : Circus σ (AnyGen σ)).populations.get? "person" = none := new_named hnew _
  refine (ends_createPopulation (c := { c with world := u1 }) hsem hnone hgen).bind fun pop c4 h4 => ?_
  have z4 := createPopulation_sized (c := { c with world := u1 }) hsem hnone hgen h4
  refine (Ends.onWorld (ends_seeded _ _)).bind fun r5 c5 h5 => ?_
  obtain ⟨u5, h5', rfl⟩ := onWorld_ok h5
  obtain ⟨⟨s5, b5⟩, -, -⟩ := seeded_began h5'
  obtain ⟨p, hp, hl⟩ := z4
  have hp5 : u5.pops[pop]? = some p := by rw [seeded_pops h5']; exact hp
  refine (Ends.onWorld (ends_createDrawn (w := u5) hp5 hl b5 (hnames s5))).bind fun x6 c6 h6 => ?_
  obtain ⟨u6, h6', rfl⟩ := onWorld_ok h6
  obtain ⟨p6, hp6, hl6⟩ := createDrawn_sized (w := u5) ⟨p, hp5, hl⟩ h6'
  refine (Ends.onWorld (ends_seeded _ _)).bind fun r7 c7 h7 => ?_
  obtain ⟨u7, h7', rfl⟩ := onWorld_ok h7
  obtain ⟨⟨s7, b7⟩, -, -⟩ := seeded_began h7'
  have hp7 : u7.pops[pop]? = some p6 := by rw [seeded_pops h7']; exact hp6
  exact (Ends.onWorld (ends_createDrawn (w := u7) hp7 hl6 b7 (hages s7))).bind fun _ _ _ => Ends.pure

theorem ends_blogPersons (hsem : env.sem = AnyGen.sem env.R) {n : Nat} {g : Blog.Parts (AnyGen σ)} {b : SeqGen}
    (hg : g.Usual b) {V1 V2 : Cell → Prop} (hnames : ∀ seed, AlwaysGives env (g.names seed) V1)
    (hages : ∀ seed, AlwaysGives env (g.ages seed) V2) {name : String} {seed start step : Int}
    (hnew : Circus.new env.R name seed start step = .ok c) : Ends (Blog.createPersons env n g) c := by
  rw [Blog.createPersons]
  refine (Ends.onWorld (ends_addGenerator _ _)).bind fun r1 c1 h1 => ?_
  obtain ⟨u1, h1', rfl⟩ := onWorld_ok h1
  obtain ⟨a1, rfl, g1⟩ := Shop.after_addGenerator (env := env) h1'
  have hgen : u1.gens[c.world.gens.length]? = some (.seq b) := by
    rw [g1, List.getElem?_append_right (le_refl _), Nat.sub_self, hg.persons]
    rfl
  refine (Ends.onWorld (ends_seeded _ _)).bind fun r2 c2 h2 => ?_
  obtain ⟨u2, h2', rfl⟩ := onWorld_ok h2
  obtain ⟨⟨s2, b2⟩, -, -⟩ := seeded_began h2'
  have hgen2 : u2.gens[c.world.gens.length]? = some (.seq b) := seeded_kept h2' hgen
  refine (Ends.onWorld (ends_seeded _ _)).bind fun r3 c3 h3 => ?_
  obtain ⟨u3, h3', rfl⟩ := onWorld_ok h3
  obtain ⟨⟨s3, b3⟩, k3, -⟩ := seeded_began h3'
  have hgen3 : u3.gens[c.world.gens.length]? = some (.seq b) := seeded_kept h3' hgen2
  replace b2 := k3 b2
  have hnone : ({ c with world := u3 } : Circus σ (AnyGen σ)).populations.get? "person" = none := new_named hnew _
  refine (ends_createPopulation (c := { c with world := u3 }) hsem hnone hgen3).bind fun pop c4 h4 => ?_
  obtain ⟨p, hp, hl⟩ := createPopulation_sized (c := { c with world := u3 }) hsem hnone hgen3 h4
  replace b2 := createPopulation_began (c := { c with world := u3 }) b2 h4
  replace b3 := createPopulation_began (c := { c with world := u3 }) b3 h4
  refine (Ends.onWorld (ends_createDrawn hp hl b3 (hnames s3))).bind fun x5 c5 h5 => ?_
  obtain ⟨u5, h5', rfl⟩ := onWorld_ok h5
  obtain ⟨p5, hp5, hl5⟩ := createDrawn_sized ⟨p, hp, hl⟩ h5'
  exact (Ends.onWorld (ends_createDrawn (w := u5) hp5 hl5 ((createDrawn_began h5').1 b2) (hages s2))).bind
    fun _ _ _ => Ends.pure

end Builds
end Trumania
