import Verif.Proofs.DbFrame
import Verif.Proofs.Networks
import Verif.Spec.ExampleWorld

/-!
# C66, C67: circuses saved to the database and loaded again
-/

namespace Trumania
open Spec
namespace Db
variable {σ γ : Type} {D : DbFormat γ}

theorem popViews_exists {env : Orders} {c : Circus σ γ} (h : Storable D env c) :
    ∃ l, PopViews D env c l c.populations := by
  have := h.populations
  rw [show (∃ l, PopViews D env c l c.populations) ↔ ∃ l, List.Forall₂ (fun (x : String × Nat)
    (y : String × (Path → Option Node)) => x.1 = y.1 ∧ ∃ p rt, c.world.pops[x.2]? = some p ∧
    Population.RelTexts D.text env c.world.rels p rt ∧ (p.attributes.map Prod.fst).Nodup ∧
    (p.relationships.map Prod.fst).Nodup ∧ y.2 = Population.popView (Population.idsText D.text p.ids)
      (Population.attrTexts D.text p) rt) c.populations l from Iff.rfl]
  generalize c.populations = d at this
  induction d with
  | nil => exact ⟨[], .nil⟩
  | cons x d ih =>
    obtain ⟨l, hl⟩ := ih fun y hy => this y (List.mem_cons_of_mem _ hy)
    obtain ⟨p, hp, hs⟩ := this x (by simp)
    obtain ⟨rt, hrt⟩ := Population.relTexts_exists hs
    exact ⟨(x.1, _) :: l, .cons ⟨rfl, p, rt, hp, hrt, hs.attributeNames, hs.relationshipNames, rfl⟩ hl⟩

theorem genTexts_exists {env : Orders} {c : Circus σ γ} (h : Storable D env c) :
    ∃ l, GenTexts D c l c.generators := by
  have := h.generators
  rw [show (∃ l, GenTexts D c l c.generators) ↔ ∃ l, List.Forall₂ (fun (x : String × Nat)
    (y : String × String × Text) => x.1 = y.1 ∧ ∃ g, c.world.gens[x.2]? = some g ∧
      y.2.1 = D.className g ∧ D.dumpGen g = .ok y.2.2) c.generators l from Iff.rfl]
  generalize c.generators = d at this
  induction d with
  | nil => exact ⟨[], .nil⟩
  | cons x d ih =>
    obtain ⟨l, hl⟩ := ih fun y hy => this y (List.mem_cons_of_mem _ hy)
    obtain ⟨-, g, g', hg, t, ht, -⟩ := this x (by simp)
    exact ⟨(x.1, D.className g, t) :: l, .cons ⟨rfl, g, hg, rfl, ht⟩ hl⟩

/-- **C66** (partial) A circus that has a population, whose tables survive CSV files, whose generators
can be saved and have no dot in their ids, is saved by `save_to_db` and restored by `load_from_db`,
in whatever order the folders are listed: same name, master seed, clock settings and populations
(members, attributes, relationships), and generators as their own files restore them. Missing from the
full property: the other circuses (see the counterexamples), and numpy generators restart from seed
1234 (`C66_numpy_restarts_partial`, C65). -/
theorem C66_restored_partial (hF : D.text.Lawful) (so : SetOrder String) (fuel d : Nat) (env : Orders)
    (db : Path) (overwrite : Bool) (c : Circus σ γ) (hc : Storable D env c) (fs : FS) (ht : Tree fs)
    (hdb : Creatable fs db) (hd : DepthBelow fs (namespaceFolder db c.name) d) (hfuel : d < fuel)
    (ho : Absent fs (namespaceFolder db c.name) ∨ overwrite = true) :
    ∃ fs', saveToDb D so fuel env db overwrite c fs = .ok () fs' ∧
      ∀ (so' : SetOrder String) (R : Rng σ) (env' : Orders), ∃ fresh c',
        Circus.new R c.name c.masterSeed c.start c.step = .ok fresh ∧
        loadFromDb D so' R env' fs' db c.name = .ok c' ∧ Reloaded D c fresh c' := by
  obtain ⟨l, hl⟩ := popViews_exists hc
  obtain ⟨gl, hgl⟩ := genTexts_exists hc
  obtain ⟨fs', hsave, hv⟩ := saveToDb_spec (D := D) so (by omega) env db overwrite c hl hgl
    hc.populationNames hc.generatorIds fs ht hdb (fun r n hr => Nat.lt_of_le_of_lt (hd r n hr) hfuel) ho
  refine ⟨fs', hsave, fun so' R env' => ?_⟩
  have hln : l.map Prod.fst = c.populations.map Prod.fst := popViews_names hl
  have hgn : gl.map Prod.fst = c.generators.map Prod.fst := genTexts_names hgl
  have hcfg : fs'.read (configFile db c.name) = .ok (D.dumpConfig c.masterSeed c.start c.step) := by
    apply FS.read_of
    rw [configFile, hv, circusView, if_pos rfl, if_pos rfl]
  have hpv : ∀ r, Dict.get? fs' (populationsFolder db c.name ++ r) = foldersView l r := by
    intro r
    rw [populationsFolder, List.append_assoc, hv, List.singleton_append, circusView, if_neg (by decide),
      if_pos rfl]
  have hgv : ∀ r, Dict.get? fs' (generatorsFolder db c.name ++ r) = gensView gl r := by
    intro r
    rw [generatorsFolder, List.append_assoc, hv, List.singleton_append, circusView, if_neg (by decide),
      if_neg (by decide), if_pos rfl]
  obtain ⟨fresh, hnew, hfresh⟩ : ∃ fresh : Circus σ γ, Circus.new R c.name c.masterSeed c.start c.step =
      .ok fresh ∧ fresh.name = c.name ∧ fresh.masterSeed = c.masterSeed ∧ fresh.start = c.start ∧
      fresh.step = c.step ∧ fresh.populations = [] ∧ fresh.generators = [] ∧ fresh.world.stories = [] ∧
      fresh.world.rels = [] ∧ fresh.world.pops = [] := by
    obtain ⟨x, s, h⟩ := nextSeed_ok R (R.seed c.masterSeed)
    refine ⟨{ name := c.name, masterSeed := c.masterSeed, start := c.start, step := c.step
              world := { clock := Clock.new R c.start c.step x, seeder := s, rels := [], pops := [],
                         stories := [] }
              populations := [], generators := [] }, ?_, rfl, rfl, rfl, rfl, rfl, rfl, rfl, rfl, rfl⟩
    rw [Circus.new, h, bind_ok]
  obtain ⟨f1, f2, f3, f4, f5, f6, f7, f8, f9⟩ := hfresh
  obtain ⟨names, hnames, hnd, hmem⟩ := listPopulations_spec so' (l := l)
    (by rintro rfl; exact hc.somePopulation (by simpa using hln.symm)) (by
      intro x hx
      obtain ⟨y, -, -, p, rt, -, -, -, -, e⟩ := forall₂_exists_left hl hx
      rw [e, Population.popView]) hpv
  -- the population of a name
  have hsrc : ∀ n ∈ names, ∃ i p v, Dict.get? c.populations n = some i ∧ c.world.pops[i]? = some p ∧
      StorablePopulation D.text env c.world.rels p ∧ Dict.get? l n = some v ∧
      ∃ rt, Population.RelTexts D.text env c.world.rels p rt ∧
        v = Population.popView (Population.idsText D.text p.ids) (Population.attrTexts D.text p) rt := by
    intro n hn
    rw [hmem, hln] at hn
    obtain ⟨i, hi⟩ := Option.ne_none_iff_exists'.1 (mt Dict.get?_eq_none_iff.1 (not_not.2 hn))
    obtain ⟨p, hp, hs⟩ := hc.populations (n, i) (Dict.get?_mem hi)
    obtain ⟨v, h1, p', rt, h2, h3, -, -, h4⟩ := (Population.get?_forall₂ (P := fun (i : Nat) (v : Path → Option Node) =>
      ∃ p rt, c.world.pops[i]? = some p ∧ Population.RelTexts D.text env c.world.rels p rt ∧
        (p.attributes.map Prod.fst).Nodup ∧ (p.relationships.map Prod.fst).Nodup ∧
        v = Population.popView (Population.idsText D.text p.ids) (Population.attrTexts D.text p) rt)
      hl n).2 i hi
    rw [hp] at h2
    cases h2
    exact ⟨i, p, v, hi, hp, hs, h1, rt, h3, h4⟩
  classical
  let src : String → Population := fun n =>
    match Dict.get? c.populations n with
    | some i => (c.world.pops[i]?).getD ⟨[], 0, [], []⟩
    | none => ⟨[], 0, [], []⟩
  have hsrc' : ∀ n i p, Dict.get? c.populations n = some i → c.world.pops[i]? = some p → src n = p := by
    intro n i p hi hp
    simp only [src, hi, hp, Option.getD_some]
  obtain ⟨er, ep, pd, hload, hp1, hp2, hp3, hp4⟩ := loadPopulations_spec (D := D) hF so' R env env'
    (rels := c.world.rels) (fs := fs') (db := db) names hnd src fresh (by
      intro n hn
      obtain ⟨i, p, v, h1, h2, h3, h4, rt, h5, h6⟩ := hsrc n hn
      rw [hsrc' n i p h1 h2]
      refine ⟨h3, rt, h5, fun r => ?_⟩
      rw [f1, List.append_assoc, hpv, List.singleton_append, foldersView, h4, h6])
  obtain ⟨gs, hgs, hgnd, hgmem⟩ := listGenerators_spec so' (by rw [hgn]; exact hc.generatorIds) (by
    intro x hx
    have : x.1 ∈ c.generators.map Prod.fst := by rw [← hgn]; exact List.mem_map.2 ⟨x, hx, rfl⟩
    obtain ⟨y, hy, e⟩ := List.mem_map.1 this
    rw [← e]
    exact (hc.generators y hy).1) hgv
  obtain ⟨eg, gd, hgload, hg1, hg2⟩ := loadGenerators_spec (D := D) (fs := fs') (db := db) gs hgnd
    { fresh with
      world := { fresh.world with rels := fresh.world.rels ++ er, pops := fresh.world.pops ++ ep }
      populations := pd }
    (fun id g' => ∀ i g, Dict.get? c.generators id = some i → c.world.gens[i]? = some g → Restores D g g')
    (by intro x _; show x.2 ∉ fresh.generators.map Prod.fst; rw [f6]; simp) (by
      rintro ⟨cls, id⟩ hx
      obtain ⟨t, ht⟩ := (hgmem cls id).1 hx
      obtain ⟨y, hy, e1, g, hg, e2, e3⟩ := forall₂_exists_left hgl ht
      obtain ⟨-, g0, g', hg0, t', ht', hl'⟩ := hc.generators y hy
      rw [hg] at hg0
      cases hg0
      rw [ht'] at e3
      cases e3
      simp only at e1 e2
      subst e2
      refine ⟨t, g', ?_, hl', ?_⟩
      · apply FS.read_of
        show Dict.get? fs' (generatorsFolder db fresh.name ++ _) = _
        rw [f1, hgv]
        exact gensView_mem (by rw [hgn]; exact hc.generatorIds) ht
      · intro i g1 hi hg1
        have hy' : (id, i) ∈ c.generators := Dict.get?_mem hi
        have : y = (id, i) := Population.nodup_fst_eq hc.generatorIds hy hy' e1
        subst this
        rw [hg] at hg1
        cases hg1
        exact ⟨t, ht', hl'⟩)
  have hall : loadFromDb D so' R env' fs' db c.name = loadGenerators D fs' db { fresh with
      world := { fresh.world with rels := fresh.world.rels ++ er, pops := fresh.world.pops ++ ep }
      populations := pd } gs := by
    rw [loadFromDb, hcfg, bind_ok, hc.config, bind_ok, hnew, bind_ok, hnames, bind_ok, hload, bind_ok,
      hgs, bind_ok]
  refine ⟨fresh, _, hnew, hall.trans hgload, ?_⟩
  · refine ⟨f1, f2, f3, f4, rfl, rfl, f7, ?_, ?_, ?_, ?_, ?_, ?_⟩
    · intro n hn
      have : n ∉ names := by
        rw [hmem, hln]
        exact Dict.get?_eq_none_iff.1 hn
      show Dict.get? pd n = none
      rw [hp1 n this, f5]
      rfl
    · intro n i p hi hp
      have : n ∈ names := by
        rw [hmem, hln]
        exact List.mem_map.2 ⟨_, Dict.get?_mem hi, rfl⟩
      obtain ⟨j, p', h1, h2, h3⟩ := hp2 n this
      rw [hsrc' n i p hi hp] at h3
      exact ⟨j, p', h1, h2, h3⟩
    · intro p' hp'
      replace hp' : p' ∈ fresh.world.pops ++ ep := hp'
      rw [f9, List.nil_append] at hp'
      obtain ⟨n, hn, h3⟩ := hp3 p' hp'
      obtain ⟨i, p, v, h1, h2, -⟩ := hsrc n hn
      rw [hsrc' n i p h1 h2] at h3
      exact ⟨n, i, p, h1, h2, h3⟩
    · intro r' hr'
      replace hr' : r' ∈ fresh.world.rels ++ er := hr'
      rw [f8, List.nil_append] at hr'
      exact hp4 r' hr'
    · intro n hn
      have : n ∉ gs.map Prod.snd := by
        intro hm
        obtain ⟨⟨cls, id⟩, hx, rfl⟩ := List.mem_map.1 hm
        obtain ⟨t, ht⟩ := (hgmem cls id).1 hx
        have hk : id ∈ c.generators.map Prod.fst := by
          rw [← hgn]
          exact List.mem_map.2 ⟨_, ht, rfl⟩
        exact Dict.get?_eq_none_iff.1 hn hk
      show Dict.get? gd n = none
      rw [hg1 n this]
      show Dict.get? fresh.generators n = none
      rw [f6]
      rfl
    · intro n i g hi hg
      have hm : (n, i) ∈ c.generators := Dict.get?_mem hi
      obtain ⟨y, hy, e, -⟩ := forall₂_exists_right hgl hm
      obtain ⟨j, g', h1, h2, h3⟩ := hg2 (y.2.1, n) ((hgmem _ _).2 ⟨y.2.2, by
        have e' : n = y.1 := e
        rw [e']
        exact hy⟩)
      exact ⟨j, g', h1, h2, h3 i g hi hg⟩

/-! ### Generators of the library -/

section
variable {F : TextFormat} {R : Rng σ} {dc : Int → Int → Int → Text} {lc : Text → Py (Int × Int × Int)}
  {enc : AnyGen.Doc σ → Text} {dec : Text → Py (AnyGen.Doc σ)}

/-- **C66** (partial) A `SequencialGenerator` is restored as it was, counter included. -/
theorem C66_sequential_restored_partial (h : ∀ d, dec (enc d) = .ok d) (g : SeqGen) (g' : AnyGen σ) :
    Restores (AnyGen.dbFormat F R dc lc enc dec) (.seq g) g' ↔ g' = .seq g := by
  have hl : SeqGen.loadFrom g.saveTo = .ok g := by
    simp [SeqGen.loadFrom, SeqGen.saveTo, Dict.get, Dict.get?, Json.asInt, Json.asStr, bind_ok]
  constructor
  · rintro ⟨t, ht, hg⟩
    simp only [AnyGen.dbFormat, AnyGen.toDoc, bind_ok, Except.ok.injEq] at ht
    subst ht
    simp only [AnyGen.dbFormat, h, bind_ok, AnyGen.ofDoc, AnyGen.seqOfDoc, AnyGen.numpyOfDoc, AnyGen.className, if_true, hl,
      Except.ok.injEq] at hg
    exact hg.symm
  · rintro rfl
    refine ⟨enc (.seq g.saveTo), rfl, ?_⟩
    simp only [AnyGen.dbFormat, h, bind_ok, AnyGen.ofDoc, AnyGen.seqOfDoc, AnyGen.numpyOfDoc, AnyGen.className, if_true, hl]

/-- **C66** (partial) A numpy generator is restored with its parameters, but with the state of seed
1234 instead of its own. -/
theorem C66_numpy_restarts_partial (h : ∀ d, dec (enc d) = .ok d) (lo hi : Rat) (s : σ) (g' : AnyGen σ) :
    Restores (AnyGen.dbFormat F R dc lc enc dec) (.uniform lo hi s) g' ↔
      g' = .uniform lo hi (R.seed 1234) := by
  have hne : ¬ ("NumpyRandomGenerator" = "SequencialGenerator") := by decide
  constructor
  · rintro ⟨t, ht, hg⟩
    simp only [AnyGen.dbFormat, AnyGen.toDoc, bind_ok, Except.ok.injEq] at ht
    subst ht
    simp only [AnyGen.dbFormat, h, bind_ok, AnyGen.ofDoc, AnyGen.seqOfDoc, AnyGen.numpyOfDoc, AnyGen.className, if_true, hne, if_false,
      Except.ok.injEq] at hg
    exact hg.symm
  · rintro rfl
    refine ⟨enc (.uniform lo hi s), rfl, ?_⟩
    simp only [AnyGen.dbFormat, h, bind_ok, AnyGen.ofDoc, AnyGen.seqOfDoc, AnyGen.numpyOfDoc, AnyGen.className, if_true, hne, if_false]

end

/-! ### C67 -/

/-- **C67** If something exists under the name of the circus and `overwrite` is not set, `save_to_db`
raises and changes nothing. -/
theorem C67_refuses (so : SetOrder String) (fuel : Nat) (env : Orders) (db : Path) (c : Circus σ γ)
    (fs : FS) (n : Node) (h : At fs (db ++ [c.name]) n) :
    saveToDb D so fuel env db false c fs = .error .environmentError fs := by
  have he : fs.pathExists (namespaceFolder db c.name) = true := by
    rw [FS.pathExists, Dict.contains, Option.isSome_iff_ne_none, Ne, FS.get?_none_iff]
    exact fun ha => ha n h
  rw [saveToDb, Act.bind_ok (FS.get_ok fs), if_pos he]
  rfl

/-- **C67** Whether it succeeds or raises, with or without `overwrite`, `save_to_db` changes nothing out
of the folder of the circus: it only creates the missing folders on the way. -/
theorem C67_only_namespace (so : SetOrder String) (fuel : Nat) (env : Orders) (db : Path)
    (overwrite : Bool) (c : Circus σ γ) (fs : FS) (ht : Tree fs) (q : Path)
    (hq : ¬ Below (db ++ [c.name]) q) (n : Node) :
    (At fs q n → At ((saveToDb D so fuel env db overwrite c).after fs) q n) ∧
    (At ((saveToDb D so fuel env db overwrite c).after fs) q n → At fs q n ∨
      (n = .dir ∧ Below q (db ++ [c.name]) ∧ Absent fs q)) := by
  have h := NamespaceOnly.saveToDb D so fuel env db overwrite c (fs0 := fs) fs
    ⟨ht.unique, fun _ _ => .inl rfl⟩
  generalize (saveToDb D so fuel env db overwrite c).after fs = fs' at h
  rcases h.out q hq with h1 | ⟨h1, h2, h3⟩
  · rw [← FS.get?_iff ht.unique, ← FS.get?_iff h.wf, h1]
    exact ⟨id, .inl⟩
  · have ha := FS.get?_none_iff.1 h1
    refine ⟨fun hn => absurd hn (ha n), fun hn => .inr ?_⟩
    rw [← FS.get?_iff h.wf, h2] at hn
    cases hn
    exact ⟨rfl, h3, ha⟩

/-! ### Cases -/

/-- generators represented by the text of their file, and a configuration in unary -/
def exFormat : DbFormat String where
  text := Decimal.format
  dumpConfig := fun a b c => List.replicate a.toNat 'a' ++ List.replicate b.toNat 'b' ++
    List.replicate c.toNat 'c'
  loadConfig := fun t => .ok (t.count 'a', t.count 'b', t.count 'c')
  className := fun _ => "SequencialGenerator"
  dumpGen := fun g => .ok g.toList
  loadGen := fun _ t => do .ok (String.ofList (← t))

/-- a circus with two populations, a relationship, attributes and a generator -/
def exCircus : Circus Nat String where
  name := "demo"
  masterSeed := 3
  start := 2
  step := 1
  world := {
    clock := ⟨5, 1, 0, ["{}"]⟩
    seeder := 0
    rels := [{ seed := 7, state := 4, grouped := [(.str "a", ⟨[.str "b", .str "c"], [1, 1/2]⟩)] }]
    pops := [{ exPop with relationships := [("FRIENDS", 0)] }, ⟨[.num 1, .num 2], 2, [], []⟩]
    stories := [] }
  populations := [("users", 0), ("sites", 1)]
  generators := [("ids", 0)]

def exDisk : FS := [([], .dir), (["db"], .dir), (["db", "other"], .file "x".toList)]

/-- names and members of the populations -/
def exMembers (c : Circus Nat String) : List (String × List Val) :=
  c.populations.filterMap fun x => (c.world.pops[x.2]?).map fun p => (x.1, p.ids)

/-- values of an attribute -/
def exAttribute (name attr : String) (c : Circus Nat String) : List (Val × Cell) :=
  (do let i ← Dict.get? c.populations name
      let p ← c.world.pops[i]?
      let a ← Dict.get? p.attributes attr
      some a.table).getD []

/-- seed and relations of a relationship -/
def exRelations (name rel : String) (c : Circus Nat String) : Int × List (Val × Val × Rat) :=
  (do let i ← Dict.get? c.populations name
      let p ← c.world.pops[i]?
      let k ← Dict.get? p.relationships rel
      let r ← c.world.rels[k]?
      some (r.seed, r.get_relations Orders.a)).getD (0, [])

/-- the circus after a round trip -/
def exRoundTrip (overwrite : Bool) (c : Circus Nat String) (fs : FS) : Option (Circus Nat String) :=
  match saveToDb exFormat (SetOrder.dedup String) 9 Orders.a ["db"] overwrite c fs with
  | .ok _ fs' =>
    match loadFromDb exFormat (SetOrder.dedup String) Rng.counter Orders.b fs' ["db"] c.name with
    | .ok c' => some c'
    | .error _ => none
  | .error _ _ => none

/-- the error raised when loading what was saved -/
def exLoadError (c : Circus Nat String) (fs : FS) : Option Err :=
  match saveToDb exFormat (SetOrder.dedup String) 9 Orders.a ["db"] false c fs with
  | .ok _ fs' =>
    match loadFromDb exFormat (SetOrder.dedup String) Rng.counter Orders.b fs' ["db"] c.name with
    | .ok _ => none
    | .error e => some e
  | .error _ _ => none

example : (exRoundTrip false exCircus exDisk).map (fun c => (c.name, c.masterSeed, c.start, c.step,
    c.world.clock.current)) = some ("demo", 3, 2, 1, 2) := by decide +kernel

example : (exRoundTrip false exCircus exDisk).map (fun c => (Dict.get? c.generators "ids", c.world.gens)) =
    some (some 0, ["{}"]) := by decide +kernel

example : (exRoundTrip false exCircus exDisk).map exMembers = some (exMembers exCircus) := by decide +kernel

example : (exRoundTrip false exCircus exDisk).map (exAttribute "users" "AGE") =
    some [(.str "a", .num 30), (.str "b", .num 40), (.str "c", .num 50)] := by decide +kernel

example : (exRoundTrip false exCircus exDisk).map (exRelations "users" "FRIENDS") =
    some (7, [(.str "a", .str "c", 1/2), (.str "a", .str "b", 1)]) := by decide +kernel

/-- an id of texts that survive -/
theorem exKept (s : String) (h1 : s = "a" ∨ s = "b" ∨ s = "c") : KeptText Decimal.format s := by
  rcases h1 with rfl | rfl | rfl <;> exact ⟨by simp [CleanText], by decide +kernel⟩

theorem exPop_storable : StorablePopulation exFormat.text Orders.a exCircus.world.rels
    { exPop with relationships := [("FRIENDS", 0)] } where
  ids := .inr ⟨by
    intro v hv
    simp only [exPop, List.mem_cons, List.not_mem_nil, or_false] at hv
    rcases hv with rfl | rfl | rfl <;> exact ⟨_, rfl, exKept _ (by simp)⟩, "a", by simp [exPop], by decide +kernel⟩
  visible := by
    intro s hs
    simp only [exPop, List.mem_cons, List.not_mem_nil, or_false, Val.str.injEq] at hs
    rcases hs with rfl | rfl | rfl <;> simp
  attributeNames := by simp [exPop]
  attributes := by
    intro x hx
    simp only [exPop, List.mem_cons, List.not_mem_nil, or_false] at hx
    subst hx
    refine ⟨.inr (.inr ⟨?_, ⟨"a", by simp, by decide +kernel⟩, "a", by simp, by decide +kernel⟩),
      [.num 30, .num 40, .num 50], rfl, .inl ?_⟩
    · intro v hv
      simp only [List.map_cons, List.map_nil, List.mem_cons, List.not_mem_nil, or_false] at hv
      rcases hv with rfl | rfl | rfl <;> exact .inr ⟨_, rfl, exKept _ (by simp)⟩
    · intro v hv
      simp only [List.mem_cons, List.not_mem_nil, or_false] at hv
      rcases hv with rfl | rfl | rfl <;> exact .inr ⟨_, rfl⟩
  relationshipNames := by simp
  relationships := by
    intro x hx
    simp only [List.mem_cons, List.not_mem_nil, or_false] at hx
    subst hx
    refine ⟨_, rfl, by decide +kernel, ?_⟩
    have e : Relationship.get_relations Orders.a
        ({ seed := 7, state := 4, grouped := [(.str "a", ⟨[.str "b", .str "c"], [1, 1/2]⟩)] } : Relationship Nat) =
        [(.str "a", .str "b", 1), (.str "a", .str "c", 1/2)] := by decide +kernel
    rw [e]
    refine .inr ⟨?_, "a", by simp, by decide +kernel⟩
    intro v hv
    simp only [List.map_cons, List.map_nil, List.cons_append, List.nil_append, List.mem_cons,
      List.not_mem_nil, or_false] at hv
    rcases hv with rfl | rfl | rfl | rfl <;> exact ⟨_, rfl, exKept _ (by simp)⟩

/-- the circus meets the hypotheses of `C66_restored_partial` -/
theorem exCircus_storable : Storable exFormat Orders.a exCircus where
  config := by decide +kernel
  somePopulation := by simp [exCircus]
  populationNames := by simp [exCircus]
  populations := by
    intro x hx
    simp only [exCircus, List.mem_cons, List.not_mem_nil, or_false] at hx
    rcases hx with rfl | rfl
    · exact ⟨_, rfl, exPop_storable⟩
    · refine ⟨_, rfl, .inl ?_, ?_, by simp, by simp, by simp, by simp⟩
      · intro v hv
        simp only [List.mem_cons, List.not_mem_nil, or_false] at hv
        rcases hv with rfl | rfl <;> exact ⟨_, rfl⟩
      · simp
  generatorIds := by simp [exCircus]
  generators := by
    intro x hx
    simp only [exCircus, List.mem_cons, List.not_mem_nil, or_false] at hx
    subst hx
    exact ⟨by simp, "{}", "{}", rfl, _, rfl, rfl⟩

example : exFormat.text.Lawful := Decimal.lawful

theorem exDisk_ready : Spec.Tree exDisk ∧ Creatable exDisk ["db"] ∧
    DepthBelow exDisk (namespaceFolder ["db"] exCircus.name) 0 ∧
    Absent exDisk (namespaceFolder ["db"] exCircus.name) := by
  refine ⟨⟨by decide, ?_⟩, ⟨by simp [At, exDisk], ?_⟩, ?_, ?_⟩
  · intro p name n h
    simp only [At, exDisk, List.mem_cons, List.not_mem_nil, or_false, Prod.mk.injEq] at h ⊢
    rcases h with ⟨h, -⟩ | ⟨h, -⟩ | ⟨h, -⟩
    · simp at h
    · have : p = [] := by
        have := congrArg List.dropLast h
        simpa using this
      simp [this]
    · have : p = ["db"] := by
        have := congrArg List.dropLast h
        simpa using this
      simp [this]
  · intro q n hq h
    obtain ⟨r, hr⟩ := hq
    simp only [At, exDisk, List.mem_cons, List.not_mem_nil, or_false, Prod.mk.injEq] at h
    rcases h with ⟨-, h⟩ | ⟨-, h⟩ | ⟨h, -⟩
    · exact h
    · exact h
    · subst h; simp at hr
  · intro r n h
    simp [At, exDisk, namespaceFolder, exCircus] at h
  · intro n h
    simp [At, exDisk, namespaceFolder, exCircus] at h

/-- with `overwrite`, the files of another circus of the same name are removed first -/
example : (exRoundTrip true exCircus (exDisk ++ [(["db", "demo"], .dir),
    (["db", "demo", "populations"], .dir), (["db", "demo", "populations", "old"], .dir)])).map exMembers =
    some (exMembers exCircus) := by decide +kernel

/-- **C66** counterexample: a circus without population is saved, and cannot be loaded. -/
theorem C66_counterexample_no_population :
    exLoadError { exCircus with populations := [] } exDisk = some .environmentError := by decide +kernel

/-- **C66** counterexample: an id of generator is cut at its first dot when loading, and its file is not
found. -/
theorem C66_counterexample_dot :
    exLoadError { exCircus with generators := [("v1.ids", 0)] } exDisk = some .environmentError := by
  decide +kernel

/-- **C66** counterexample: a generator without file format makes `save_to_db` raise, after the
populations have been written. -/
theorem C66_counterexample_constant :
    (saveToDb (AnyGen.dbFormat Decimal.format Rng.counter exFormat.dumpConfig exFormat.loadConfig
      (fun _ => []) (fun _ => .error .valueError)) (SetOrder.dedup String) 9 Orders.a ["db"] false
      ({ name := "demo", masterSeed := 3, start := 2, step := 1
         world := { exWorld with clock := { exWorld.clock with listeners := [.constant (.num 1)] } }
         populations := [("users", 0)], generators := [("one", 0)] } : Circus Nat (AnyGen Nat))).raised? exDisk =
      some .typeError := by decide +kernel

/-- the namespace is in use: nothing is written -/
example : (saveToDb exFormat (SetOrder.dedup String) 9 Orders.a ["db"] false
    { exCircus with name := "other" }).after exDisk = exDisk := by
  have := C67_refuses (D := exFormat) (SetOrder.dedup String) 9 Orders.a ["db"]
    { exCircus with name := "other" } exDisk (.file "x".toList) (by simp [At, exDisk])
  rw [Act.after_error this]

end Db
end Trumania
