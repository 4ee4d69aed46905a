import Verif.Model.MusicDb
import Verif.Props.Namespace
import Verif.Proofs.Population

/-!
# Populations saved on their own
-/

namespace Trumania
open Spec Act

namespace FS

theorem tree_mkdir (p : Path) : Keeps Tree (mkdir p) := by
  intro fs h
  rcases mkdir_cases h p with h1 | ⟨h1, -, h2, h3⟩
  · rw [Act.after, h1]
    exact h
  · rw [Act.after_ok h3]
    exact set_tree h h2 fun e => absurd rfl e

theorem tree_writeFile (p : Path) (t : Text) : Keeps Tree (writeFile p t) := by
  intro fs h
  rcases writeFile_cases h p t with h1 | ⟨h1, -, h2, h3⟩
  · rw [Act.after, h1]
    exact h
  · rw [Act.after_ok h3]
    exact set_tree h h2 fun _ => h1

theorem tree_mkdirs (l : List Path) : Keeps Tree (mkdirs l) := by
  induction l with
  | nil => exact Keeps.pure _
  | cons p l ih =>
    refine Keeps.getBind fun fs h => ?_
    split
    · exact ih fs h
    · exact (Keeps.bind (tree_mkdir p) fun _ => ih) fs h

theorem tree_makedirs (p : Path) : Keeps Tree (makedirs p) := by
  refine Keeps.getBind fun fs h => ?_
  split
  · exact h
  · exact tree_mkdirs _ fs h

end FS

theorem Act.Keeps.ofPy {W α : Type} {P : W → Prop} (x : Py α) : Act.Keeps P (Act.ofPy x) := by
  intro w h
  cases x <;> exact h

theorem Population.tree_saveItems (folder : Path) (items : List (String × Py Text)) :
    Keeps Tree (saveItems folder items) := by
  rw [saveItems]
  split
  · exact Keeps.pure _
  · exact Keeps.bind (FS.tree_mkdir _) fun _ => Keeps.forEach fun x => Keeps.bind (Keeps.ofPy _) fun t =>
      FS.tree_writeFile _ _

namespace Db
open Population
variable {σ γ : Type} {D : DbFormat γ}

/-- what `save_population` leaves -/
structure SavedIn (fs fs' : FS) (folder : Path) (view : Path → Option Node) : Prop where
  tree : Tree fs'
  inside : ∀ r, Dict.get? fs' (folder ++ r) = view r
  above : ∀ q, ¬ Below folder q → Below q folder → Dict.get? fs' q = some .dir
  outside : ∀ q, ¬ Below folder q → ¬ Below q folder → Dict.get? fs' q = Dict.get? fs q

theorem savePopulation_spec (so : SetOrder String) {fuel d : Nat} (orders : Orders) (db : Path) {w : World σ γ} {k : Nat}
    {p : Population} (hk : w.pops[k]? = some p) (ns id : String) {rt : List (String × Text)}
    (hrt : RelTexts D.text orders w.rels p rt) (ha : (p.attributes.map Prod.fst).Nodup)
    (hr : (p.relationships.map Prod.fst).Nodup) (fs : FS) (ht : Tree fs)
    (hc : Creatable fs (populationsFolder db ns)) (hd : DepthBelow fs (populationsFolder db ns ++ [id]) d) (hf : d < fuel) :
    ∃ fs', savePopulation D so fuel orders db w k ns id fs = .ok () fs' ∧
      SavedIn fs fs' (populationsFolder db ns ++ [id]) (popView (idsText D.text p.ids) (attrTexts D.text p) rt) := by
  set folder := populationsFolder db ns ++ [id] with hfolder
  obtain ⟨fs1, h1, h2, h3, h4⟩ := C62_deletes_one_tree so fuel d folder fs ht hd hf
  have hsame : ∀ q, ¬ Below folder q → Dict.get? fs1 q = Dict.get? fs q := by
    intro q hq
    have := h3 q hq
    cases hg : Dict.get? fs q with
    | none =>
      rw [FS.get?_none_iff] at hg ⊢
      exact fun n hn => hg n ((this n).1 hn)
    | some n => exact (FS.get?_iff h4.unique).2 ((this n).2 (Dict.get?_mem hg))
  have hclean : ∀ r, Dict.get? fs1 (folder ++ r) = none := fun r => FS.get?_none_iff.2 (h2 _ ⟨r, rfl⟩)
  have hw : FS.Way fs1 folder := by
    have hw0 := FS.way_of_creatable ht hc
    refine ⟨?_, fun q hq => ?_⟩
    · rw [hsame [] (by rintro ⟨r, hr⟩; rw [hfolder] at hr; simp at hr)]
      exact hw0.1
    · by_cases hb : Below folder q
      · obtain ⟨r, rfl⟩ := hb
        exact .inr (hclean r)
      · rw [hsame q hb]
        refine hw0.2 q ?_
        obtain ⟨r, hr⟩ := hq
        rcases List.eq_nil_or_concat r with rfl | ⟨r', x, rfl⟩
        · rw [List.append_nil] at hr
          exact absurd ⟨[], by rw [hr, List.append_nil]⟩ hb
        · rw [hfolder, List.concat_eq_append, ← List.append_assoc] at hr
          exact ⟨r', (List.append_inj' hr rfl).1⟩
  obtain ⟨fs', h5, h6, h7⟩ := saveTo_spec (F := D.text) so (by omega : 0 < fuel) orders w.rels p fs1 hrt ha hr hw hclean
  have hab : FS.ensureNonExistingDir so fuel folder fs1 = .ok () fs1 :=
    ensureNonExistingDir_absent so (by omega) (by have := hclean []; rwa [List.append_nil] at this)
  refine ⟨fs', ?_, ?_, h6, fun q hq hb => (h7 q hq).1 hb, fun q hq hb => ((h7 q hq).2 hb).trans (hsame q hq)⟩
  · rw [savePopulation, hk]
    show p.saveTo D.text so fuel orders w.rels folder fs = _
    rw [saveTo, Act.bind_ok h1]
    rw [saveTo, Act.bind_ok hab] at h5
    exact h5
  · have hT : Keeps Tree (do
        FS.makedirs folder
        FS.writeFile (folder ++ ["ids.csv"]) (idsText D.text p.ids)
        saveItems (folder ++ ["attributes"]) (p.attributes.map fun x => (x.1, .ok (x.2.saveText D.text)))
        saveItems (folder ++ ["relationships"])
          (p.relationships.map fun x => (x.1, relText D.text orders w.rels x.2)) : Act FS Unit) :=
      Keeps.bind (FS.tree_makedirs _) fun _ => Keeps.bind (FS.tree_writeFile _ _) fun _ =>
        Keeps.bind (tree_saveItems _ _) fun _ => tree_saveItems _ _
    have := hT fs1 h4
    rw [saveTo, Act.bind_ok hab] at h5
    rw [Act.after_ok h5] at this
    exact this

theorem loadText_reachable {F : TextFormat} {R : Rng σ} {orders : Orders} {t : Text} {r : Relationship σ}
    (h : Relationship.loadText F R orders t = .ok r) : Relationship.Reachable R r ∧ r.state = R.seed r.seed := by
  rw [Relationship.loadText] at h
  obtain ⟨file, -, h⟩ := bind_eq_ok.1 h
  split at h
  · cases h
  · obtain ⟨seed, -, h⟩ := bind_eq_ok.1 h
    obtain ⟨pivot, -, h⟩ := bind_eq_ok.1 h
    split at h
    · cases h
    · obtain ⟨_, -, h⟩ := bind_eq_ok.1 h
      obtain ⟨_, -, h⟩ := bind_eq_ok.1 h
      obtain ⟨_, -, h⟩ := bind_eq_ok.1 h
      obtain ⟨_, -, h⟩ := bind_eq_ok.1 h
      refine ⟨.add orders (.new seed) h, ?_⟩
      rw [Relationship.add_relations] at h
      obtain ⟨_, -, h⟩ := bind_eq_ok.1 h
      obtain ⟨_, -, h⟩ := bind_eq_ok.1 h
      cases h
      rfl

theorem mem_ofPairs {α : Type} {x : String × α} {l : List (String × α)} (h : x ∈ Dict.ofPairs l) : x ∈ l := by
  have : ∀ (l : List (String × α)) (d : Dict String α), x ∈ l.foldl (fun d kv => Dict.set d kv.1 kv.2) d → x ∈ d ∨ x ∈ l := by
    intro l
    induction l with
    | nil => exact fun d h => .inl h
    | cons y l ih =>
      intro d h
      rcases ih _ h with h | h
      · rcases Population.mem_set h with h | h
        · exact .inr (by rw [h]; simp)
        · exact .inl h
      · exact .inr (List.mem_cons_of_mem _ h)
  rcases this l [] h with h | h
  · cases h
  · exact h

theorem loadFrom_reachable {F : TextFormat} {so : SetOrder String} {R : Rng σ} {orders : Orders} {fs : FS} {folder : Path}
    {L : Loaded σ} (h : loadFrom F so R orders fs folder = .ok L) :
    ∀ r ∈ L.relationships.map Prod.snd, Relationship.Reachable R r ∧ r.state = R.seed r.seed := by
  rw [loadFrom] at h
  obtain ⟨_, -, h⟩ := bind_eq_ok.1 h
  obtain ⟨_, -, h⟩ := bind_eq_ok.1 h
  obtain ⟨_, -, h⟩ := bind_eq_ok.1 h
  obtain ⟨d, h1, h⟩ := bind_eq_ok.1 h
  cases h
  intro r hr
  obtain ⟨x, hx, rfl⟩ := List.mem_map.1 hr
  rw [loadItems] at h1
  split at h1
  · obtain ⟨names, -, h1⟩ := bind_eq_ok.1 h1
    obtain ⟨items, h2, h1⟩ := bind_eq_ok.1 h1
    cases h1
    have hx' := mem_ofPairs hx
    obtain ⟨name, -, h3⟩ := forall₂_exists_left (mapM_ok_iff.1 h2) hx'
    obtain ⟨t, -, h3⟩ := bind_eq_ok.1 h3
    obtain ⟨a, h4, h3⟩ := bind_eq_ok.1 h3
    cases h3
    exact loadText_reachable h4
  · cases h1
    cases hx

theorem loadPopulations_reachable {so : SetOrder String} {R : Rng σ} {orders : Orders} {fs : FS} {db : Path}
    {names : List String} {c c' : Circus σ γ} (hc : ∀ r ∈ c.world.rels, Relationship.Reachable R r)
    (h : loadPopulations D so R orders fs db c names = .ok c') : ∀ r ∈ c'.world.rels, Relationship.Reachable R r := by
  induction names generalizing c with
  | nil =>
    cases h
    exact hc
  | cons n names ih =>
    rw [loadPopulations, List.foldlM_cons] at h
    obtain ⟨c1, h1, h⟩ := bind_eq_ok.1 h
    obtain ⟨L, h2, h1⟩ := bind_eq_ok.1 h1
    cases h1
    refine ih ?_ h
    intro r hr
    rcases List.mem_append.1 hr with hr | hr
    · exact hc r hr
    · exact (loadFrom_reachable h2 r hr).1

theorem loadFromDb_reachable {so : SetOrder String} {R : Rng σ} {orders : Orders} {fs : FS} {db : Path} {name : String}
    {c : Circus σ γ} (h : loadFromDb D so R orders fs db name = .ok c) :
    ∀ r ∈ c.world.rels, Relationship.Reachable R r := by
  rw [loadFromDb] at h
  obtain ⟨_, -, h⟩ := bind_eq_ok.1 h
  obtain ⟨_, -, h⟩ := bind_eq_ok.1 h
  obtain ⟨c0, h0, h⟩ := bind_eq_ok.1 h
  obtain ⟨_, -, h⟩ := bind_eq_ok.1 h
  obtain ⟨c1, h1, h⟩ := bind_eq_ok.1 h
  obtain ⟨gens, -, h⟩ := bind_eq_ok.1 h
  have hr0 : c0.world.rels = [] := by
    rw [Circus.new] at h0
    obtain ⟨_, -, h0⟩ := bind_eq_ok.1 h0
    cases h0
    rfl
  have hr1 := loadPopulations_reachable (by rw [hr0]; simp) h1
  have : ∀ (l : List (String × String)) (c2 : Circus σ γ), loadGenerators D fs db c2 l = .ok c →
      c.world.rels = c2.world.rels := by
    intro l
    induction l with
    | nil => intro c2 h; cases h; rfl
    | cons x l ih =>
      intro c2 h
      rw [loadGenerators, List.foldlM_cons] at h
      obtain ⟨c3, h3, h⟩ := bind_eq_ok.1 h
      rw [ih c3 h]
      rw [loadGenerator] at h3
      obtain ⟨g, -, h3⟩ := bind_eq_ok.1 h3
      rw [attachGen] at h3
      split at h3
      · cases h3
      · cases h3
        rfl
  rw [this _ _ h]
  exact hr1

end Db
end Trumania
