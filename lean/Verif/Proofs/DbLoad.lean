import Verif.Proofs.DbSave
import Verif.Proofs.DbText
import Verif.Props.Persistence

/-!
# What the loading functions read
-/

namespace Trumania
open Spec

theorem stem_csv (name : String) : stem (name ++ ".csv") = name := by
  rw [stem, String.length_append, String.toList_append]
  apply String.toList_injective
  have h : ".csv".length = 4 := by decide
  rw [String.toList_ofList, h, Nat.add_sub_cancel, ← String.length_toList, List.take_left]

theorem beforeDot_json {id : String} (h : '.' ∉ id.toList) : beforeDot (id ++ ".json") = id := by
  rw [beforeDot, String.toList_append]
  apply String.toList_injective
  rw [String.toList_ofList, List.takeWhile_append_of_pos]
  · have : ".json".toList = '.' :: "json".toList := by decide
    rw [this, List.takeWhile_cons, if_neg (by simp), List.append_nil]
  · intro c hc
    simp only [decide_eq_true_eq]
    rintro rfl
    exact h hc

theorem Relationship.get_relations_env_perm {σ : Type} (r : Relationship σ) (env env' : Orders) :
    (r.get_relations env).Perm (r.get_relations env') := by
  rw [get_relations_perm_iff]
  intro f
  rw [get_relations_none_rowsOf]

namespace Population
variable {σ α : Type} {F : TextFormat}

theorem filesView_some {l : List (String × Text)} {f : String} {n : Node}
    (h : filesView l [f] = some n) : ∃ x ∈ l, x.1 ++ ".csv" = f ∧ n = .file x.2 := by
  rw [filesView, Option.map_eq_some_iff] at h
  obtain ⟨x, hx, rfl⟩ := h
  exact ⟨x, List.mem_of_find?_eq_some hx, by simpa using List.find?_some hx, rfl⟩

theorem filesView_mem {l : List (String × Text)} {x : String × Text} (h : x ∈ l) :
    filesView l [x.1 ++ ".csv"] ≠ none := by
  rw [filesView, Ne, Option.map_eq_none_iff, List.find?_eq_none]
  intro hx
  exact hx x h (by simp)

theorem nodup_fst_eq {β : Type} {l : List (String × β)} (h : (l.map Prod.fst).Nodup) {x y : String × β}
    (hx : x ∈ l) (hy : y ∈ l) (e : x.1 = y.1) : x = y :=
  List.inj_on_of_nodup_map h hx hy e

/-- a folder of files is read as a dictionary of what each file holds -/
theorem loadItems_spec (so : SetOrder String) {load : Text → Py α} {fs : FS} {folder : Path}
    {l : List (String × Text)} (hv : ∀ r, Dict.get? fs (folder ++ r) = itemsView l r)
    (hn : (l.map Prod.fst).Nodup) (hl : ∀ x ∈ l, ∃ a, load x.2 = .ok a) :
    ∃ d, loadItems so load fs folder = .ok d ∧ (d.map Prod.fst).Nodup ∧
      (∀ n, Dict.get? l n = none → Dict.get? d n = none) ∧
      ∀ n t, Dict.get? l n = some t → ∃ a, load t = .ok a ∧ Dict.get? d n = some a := by
  have h0 := hv []
  rw [List.append_nil] at h0
  by_cases he : l = []
  · subst he
    rw [itemsView, if_pos rfl] at h0
    refine ⟨[], ?_, by simp, fun _ _ => rfl, fun n t h => by cases h⟩
    rw [loadItems, if_neg (by simp [FS.not_pathExists_of h0])]
  · have hv' : ∀ r, Dict.get? fs (folder ++ r) = filesView l r := by
      intro r; rw [hv, itemsView, if_neg he]
    rw [itemsView, if_neg he, filesView] at h0
    have hname : ∀ name ∈ so.order (fs.children folder), ∃ x ∈ l, name = x.1 ++ ".csv" ∧
        fs.read (folder ++ [name]) = .ok x.2 := by
      intro name hm
      rw [so.mem, FS.mem_children_get?, hv'] at hm
      obtain ⟨n, hn⟩ := Option.ne_none_iff_exists'.1 hm
      obtain ⟨x, hx, hx1, rfl⟩ := filesView_some hn
      refine ⟨x, hx, hx1.symm, FS.read_of ?_⟩
      rw [hv', hn]
    have hitems : ∃ items, List.Forall₂ (fun name it => ∃ x ∈ l, name = x.1 ++ ".csv" ∧
        fs.read (folder ++ [name]) = .ok x.2 ∧ it.1 = x.1 ∧ load x.2 = .ok it.2)
        (so.order (fs.children folder)) (items : List (String × α)) := by
      generalize so.order (fs.children folder) = names at hname
      induction names with
      | nil => exact ⟨[], .nil⟩
      | cons name names ih =>
        obtain ⟨items, hi⟩ := ih fun m hm => hname m (List.mem_cons_of_mem _ hm)
        obtain ⟨x, hx, hx1, hx2⟩ := hname name (by simp)
        obtain ⟨a, ha⟩ := hl x hx
        exact ⟨(x.1, a) :: items, .cons ⟨x, hx, hx1, hx2, rfl, ha⟩ hi⟩
    obtain ⟨items, hi⟩ := hitems
    have hmap : so.order (fs.children folder) = items.map fun it => it.1 ++ ".csv" := by
      clear hname
      generalize so.order (fs.children folder) = names at hi
      induction hi with
      | nil => rfl
      | cons hx _ ih =>
        obtain ⟨x, -, h1, -, h2, -⟩ := hx
        rw [List.map_cons, ← ih, h1, h2]
    have hnd : (items.map Prod.fst).Nodup := by
      have := so.nodup (fs.children folder)
      rw [hmap] at this
      have e : (items.map fun it => it.1 ++ ".csv") = (items.map Prod.fst).map fun s => s ++ ".csv" := by
        rw [List.map_map]; rfl
      rw [e] at this
      exact List.Nodup.of_map _ this
    have hmem : ∀ it ∈ items, ∃ x ∈ l, it.1 = x.1 ∧ load x.2 = .ok it.2 := by
      intro it hit
      obtain ⟨name, -, x, hx, -, -, h1, h2⟩ := forall₂_exists_left hi hit
      exact ⟨x, hx, h1, h2⟩
    refine ⟨items, ?_, hnd, ?_, ?_⟩
    · rw [loadItems, if_pos (FS.pathExists_of h0), FS.list, if_pos (FS.isDir_of h0), bind_ok]
      have : (so.order (fs.children folder)).mapM (fun name => (do
          let t ← fs.read (folder ++ [name])
          let a ← load t
          .ok (stem name, a) : Py (String × α))) = .ok items := by
        rw [mapM_ok_iff]
        refine hi.imp ?_
        rintro name it ⟨x, hx, h1, h2, h3, h4⟩
        rw [h2, bind_ok, h4, bind_ok, h1, stem_csv, ← h3]
      rw [this, bind_ok, Dict.ofPairs_nodup hnd]
    · intro n hnone
      rw [Dict.get?_eq_none_iff] at hnone ⊢
      intro hm
      obtain ⟨it, hit, rfl⟩ := List.mem_map.1 hm
      obtain ⟨x, hx, h1, -⟩ := hmem it hit
      exact hnone (List.mem_map.2 ⟨x, hx, h1.symm⟩)
    · intro n t hsome
      have hx := Dict.get?_mem hsome
      have hc : n ++ ".csv" ∈ so.order (fs.children folder) := by
        rw [so.mem, FS.mem_children_get?, hv']
        exact filesView_mem hx
      rw [hmap] at hc
      obtain ⟨it, hit, e⟩ := List.mem_map.1 hc
      obtain ⟨y, hy, h1, h2⟩ := hmem it hit
      have e1 : it.1 = n := csv_inj e
      have : y = (n, t) := nodup_fst_eq hn hy hx (h1.symm.trans e1)
      subst this
      refine ⟨it.2, h2, ?_⟩
      rw [Dict.get?_eq_some_iff hnd, ← e1]
      exact hit

/-- two dictionaries with the same names in the same order, and related values -/
theorem get?_forall₂ {β δ : Type} {P : β → δ → Prop} {d : Dict String β} {l : Dict String δ}
    (h : List.Forall₂ (fun x y => x.1 = y.1 ∧ P x.2 y.2) d l) (n : String) :
    (Dict.get? d n = none ↔ Dict.get? l n = none) ∧
      ∀ b, Dict.get? d n = some b → ∃ t, Dict.get? l n = some t ∧ P b t := by
  induction h with
  | nil => exact ⟨by simp [Dict.get?], fun b hb => by cases hb⟩
  | @cons x y d l hx _ ih =>
    obtain ⟨a, b⟩ := x
    obtain ⟨a', b'⟩ := y
    obtain ⟨rfl, hP⟩ := hx
    simp only [Dict.get?_cons]
    by_cases e : a = n
    · rw [if_pos e, if_pos e]
      exact ⟨by simp, fun c hc => by cases hc; exact ⟨b', rfl, hP⟩⟩
    · rw [if_neg e, if_neg e]
      exact ih

theorem get?_map_snd {β δ : Type} (f : β → δ) (d : Dict String β) (n : String) :
    Dict.get? (d.map fun x => (x.1, f x.2)) n = (Dict.get? d n).map f := by
  induction d with
  | nil => rfl
  | cons x d ih =>
    obtain ⟨a, b⟩ := x
    simp only [List.map_cons, Dict.get?_cons]
    by_cases e : a = n
    · rw [if_pos e, if_pos e]; rfl
    · rw [if_neg e, if_neg e, ih]

theorem relTexts_exists {env : Orders} {rels : List (Relationship σ)} {p : Population}
    (h : StorablePopulation F env rels p) : ∃ rt, RelTexts F env rels p rt := by
  have := h.relationships
  rw [show (∃ rt, RelTexts F env rels p rt) ↔ ∃ rt, List.Forall₂ (fun (x : String × Nat) (y : String × Text) =>
    x.1 = y.1 ∧ relText F env rels x.2 = .ok y.2) p.relationships rt from Iff.rfl]
  generalize p.relationships = d at this
  induction d with
  | nil => exact ⟨[], .nil⟩
  | cons x d ih =>
    obtain ⟨rt, hrt⟩ := ih fun y hy => this y (List.mem_cons_of_mem _ hy)
    obtain ⟨r, hr, -⟩ := this x (by simp)
    exact ⟨(x.1, r.saveText F env) :: rt, .cons ⟨rfl, by simp only [relText, hr]⟩ hrt⟩

/-- loading the folder of a population -/
theorem loadFrom_spec (hF : F.Lawful) (so : SetOrder String) (R : Rng σ) (env env' : Orders)
    {rels : List (Relationship σ)} {p : Population} (hp : StorablePopulation F env rels p)
    {rt : List (String × Text)} (hrt : RelTexts F env rels p rt) {fs : FS} {folder : Path}
    (hv : ∀ r, Dict.get? fs (folder ++ r) = popView (idsText F p.ids) (attrTexts F p) rt r) :
    ∃ L, loadFrom F so R env' fs folder = .ok L ∧ L.ids = p.ids ∧ (L.attributes.map Prod.fst).Nodup ∧
      (∀ n, Dict.get? L.attributes n = Dict.get? p.attributes n) ∧
      (L.relationships.map Prod.fst).Nodup ∧
      (∀ n, Dict.get? p.relationships n = none → Dict.get? L.relationships n = none) ∧
      ∀ n i r, Dict.get? p.relationships n = some i → rels[i]? = some r →
        ∃ r', Dict.get? L.relationships n = some r' ∧ SameRelationship r r' := by
  have hids : fs.read (folder ++ ["ids.csv"]) = .ok (idsText F p.ids) := by
    apply FS.read_of
    rw [hv, popView, if_pos rfl, if_pos rfl]
  have hattr : ∀ r, Dict.get? fs (folder ++ ["attributes"] ++ r) = itemsView (attrTexts F p) r := by
    intro r
    rw [List.append_assoc, hv, List.singleton_append, popView, if_neg (by decide), if_pos rfl]
  have hrel : ∀ r, Dict.get? fs (folder ++ ["relationships"] ++ r) = itemsView rt r := by
    intro r
    rw [List.append_assoc, hv, List.singleton_append, popView, if_neg (by decide), if_neg (by decide),
      if_pos rfl]
  have hload : ∀ i r, i ∈ p.relationships.map Prod.snd → rels[i]? = some r →
      ∃ r', Relationship.loadText F R env' (r.saveText F env) = .ok r' ∧ SameRelationship r r' := by
    intro i r hi hr
    obtain ⟨x, hx, rfl⟩ := List.mem_map.1 hi
    obtain ⟨r0, hr0, hs⟩ := hp.relationships x hx
    rw [hr] at hr0
    cases hr0
    obtain ⟨r', h1, h2, -, h4⟩ := Relationship.C64_reloaded_partial hF R env env' env env hs.nonempty hs.ids
    refine ⟨r', h1, h2, fun e e' => ?_⟩
    exact (r'.get_relations_env_perm e' env).trans (h4.trans (r.get_relations_env_perm env e))
  obtain ⟨da, ha, ha0, ha1, ha2⟩ := loadItems_spec so (load := Attribute.loadText F) hattr
    (by rw [attrTexts, List.map_map]; exact hp.attributeNames) (by
      intro x hx
      obtain ⟨y, hy, rfl⟩ := List.mem_map.1 hx
      exact ⟨y.2, Attribute.loadText_saveText hF (hp.attributes y hy)⟩)
  obtain ⟨dr, hr, hr0, hr1, hr2⟩ := loadItems_spec so (load := Relationship.loadText F R env') hrel
    (by rw [relTexts_names hrt]; exact hp.relationshipNames) (by
      intro x hx
      obtain ⟨y, hy, -, e⟩ := forall₂_exists_left hrt hx
      obtain ⟨r, hr, -⟩ := hp.relationships y hy
      simp only [relText, hr, Except.ok.injEq] at e
      obtain ⟨r', h1, -⟩ := hload y.2 r (List.mem_map.2 ⟨y, hy, rfl⟩) hr
      rw [← e]
      exact ⟨r', h1⟩)
  refine ⟨{ ids := p.ids, attributes := da, relationships := dr }, ?_, rfl, ha0, ?_, hr0, ?_, ?_⟩
  · rw [loadFrom, hids, bind_ok, readIds_idsText hF hp.ids hp.visible, bind_ok, ha, bind_ok, hr, bind_ok]
  · intro n
    have e : Dict.get? (attrTexts F p) n = (Dict.get? p.attributes n).map fun a => a.saveText F :=
      get?_map_snd _ _ _
    show Dict.get? da n = _
    cases hg : Dict.get? p.attributes n with
    | none => exact ha1 n (by rw [e, hg]; rfl)
    | some a =>
      obtain ⟨a', h1, h2⟩ := ha2 n (a.saveText F) (by rw [e, hg]; rfl)
      rw [Attribute.loadText_saveText hF (hp.attributes (n, a) (Dict.get?_mem hg))] at h1
      cases h1
      exact h2
  · intro n hnone
    exact hr1 n ((get?_forall₂ (P := fun i t => relText F env rels i = .ok t) hrt n).1.1 hnone)
  · intro n i r hi hri
    obtain ⟨t, ht, hP⟩ := (get?_forall₂ (P := fun i t => relText F env rels i = .ok t) hrt n).2 i hi
    simp only [relText, hri, Except.ok.injEq] at hP
    subst hP
    obtain ⟨r0, h1, h2⟩ := hload i r (List.mem_map.2 ⟨(n, i), Dict.get?_mem hi, rfl⟩) hri
    obtain ⟨r', h3, h4⟩ := hr2 n _ ht
    rw [h1] at h3
    cases h3
    exact ⟨r0, h4, h2⟩

end Population

namespace Db
open Population
variable {σ γ : Type} {D : DbFormat γ}

theorem get?_zipIdx {β : Type} (d : Dict String β) (base k : Nat) (n : String) :
    (Dict.get? d n = none → Dict.get? ((d.zipIdx k).map fun x => (x.1.1, base + x.2)) n = none) ∧
    ∀ b, Dict.get? d n = some b → ∃ j, Dict.get? ((d.zipIdx k).map fun x => (x.1.1, base + x.2)) n =
      some (base + (k + j)) ∧ (d.map Prod.snd)[j]? = some b := by
  induction d generalizing k with
  | nil => exact ⟨fun _ => rfl, fun b hb => by cases hb⟩
  | cons x d ih =>
    obtain ⟨a, b⟩ := x
    simp only [List.zipIdx_cons, List.map_cons, Dict.get?_cons]
    by_cases e : a = n
    · rw [if_pos e, if_pos e]
      exact ⟨by simp, fun c hc => ⟨0, rfl, hc⟩⟩
    · rw [if_neg e, if_neg e]
      refine ⟨(ih (k + 1)).1, fun c hc => ?_⟩
      obtain ⟨j, h1, h2⟩ := (ih (k + 1)).2 c hc
      exact ⟨j + 1, by rw [h1]; congr 2; omega, h2⟩

theorem names_zipIdx {β : Type} (d : Dict String β) (base k : Nat) :
    ((d.zipIdx k).map fun x => (x.1.1, base + x.2)).map Prod.fst = d.map Prod.fst := by
  induction d generalizing k with
  | nil => rfl
  | cons x d ih => rw [List.zipIdx_cons, List.map_cons, List.map_cons, ih, List.map_cons]

theorem samePopulation_extend {rels rels' ext : List (Relationship σ)} {p p' : Population}
    (h : SamePopulation rels rels' p p') : SamePopulation rels (rels' ++ ext) p p' where
  ids := h.ids
  size := h.size
  attributeNames := h.attributeNames
  attributes := h.attributes
  relationshipNames := h.relationshipNames
  noOther := h.noOther
  relationships := by
    intro n i r hi hr
    obtain ⟨j, r', h1, h2, h3⟩ := h.relationships n i r hi hr
    refine ⟨j, r', h1, ?_, h3⟩
    rw [List.getElem?_append_left (List.getElem?_eq_some_iff.1 h2).1]
    exact h2

/-- a population that is loaded and attached is that of the files -/
theorem samePopulation_attached (hF : D.text.Lawful) (so : SetOrder String) (R : Rng σ) (env env' : Orders)
    {rels : List (Relationship σ)} {p : Population} (hp : StorablePopulation D.text env rels p)
    {rt : List (String × Text)} (hrt : RelTexts D.text env rels p rt) {fs : FS} {folder : Path}
    (hv : ∀ r, Dict.get? fs (folder ++ r) = popView (idsText D.text p.ids) (attrTexts D.text p) rt r)
    (rels0 : List (Relationship σ)) :
    ∃ L, loadFrom D.text so R env' fs folder = .ok L ∧ SamePopulation rels (rels0 ++ L.relationships.map Prod.snd) p
      { ids := L.ids, size := L.ids.length, attributes := L.attributes
        relationships := L.relationships.zipIdx.map fun x => (x.1.1, rels0.length + x.2) } ∧
      ∀ r' ∈ L.relationships.map Prod.snd, ∃ r ∈ rels, SameRelationship r r' := by
  obtain ⟨L, hL, h1, h0, h2, h3, h4, h5⟩ := loadFrom_spec hF so R env env' hp hrt hv
  refine ⟨L, hL, ⟨h1, congrArg List.length h1, h0, h2, (names_zipIdx L.relationships rels0.length 0).symm ▸ h3, ?_, ?_⟩, ?_⟩
  · intro k hk
    exact (get?_zipIdx L.relationships rels0.length 0 k).1 (h4 k hk)
  · intro k i r hi hr
    obtain ⟨r', h6, h7⟩ := h5 k i r hi hr
    obtain ⟨j, h8, h9⟩ := (get?_zipIdx L.relationships rels0.length 0 k).2 r' h6
    refine ⟨rels0.length + (0 + j), r', h8, ?_, h7⟩
    rw [List.getElem?_append_right (by omega)]
    rw [show rels0.length + (0 + j) - rels0.length = j by omega]
    exact h9
  · intro r' hr'
    obtain ⟨⟨k, r0⟩, hx, rfl⟩ := List.mem_map.1 hr'
    have hg := (Dict.get?_eq_some_iff h3).2 hx
    cases hi : Dict.get? p.relationships k with
    | none =>
      rw [h4 k hi] at hg
      cases hg
    | some i =>
      obtain ⟨r, hr, -⟩ := hp.relationships (k, i) (Dict.get?_mem hi)
      obtain ⟨r'', h6, h7⟩ := h5 k i r hi hr
      rw [h6] at hg
      cases hg
      exact ⟨r, List.mem_of_getElem? hr, h7⟩

/-- the loop on the populations -/
theorem loadPopulations_spec (hF : D.text.Lawful) (so : SetOrder String) (R : Rng σ) (env env' : Orders)
    {rels : List (Relationship σ)} {fs : FS} {db : Path} (names : List String) (hn : names.Nodup)
    (src : String → Population) (c : Circus σ γ)
    (hp : ∀ n ∈ names, StorablePopulation D.text env rels (src n) ∧
      ∃ rt, RelTexts D.text env rels (src n) rt ∧
        ∀ r, Dict.get? fs (populationsFolder db c.name ++ [n] ++ r) =
          popView (idsText D.text (src n).ids) (attrTexts D.text (src n)) rt r) :
    ∃ er ep d, loadPopulations D so R env' fs db c names = .ok { c with
        world := { c.world with rels := c.world.rels ++ er, pops := c.world.pops ++ ep }
        populations := d } ∧
      (∀ n, n ∉ names → Dict.get? d n = Dict.get? c.populations n) ∧
      (∀ n ∈ names, ∃ j p', Dict.get? d n = some j ∧ (c.world.pops ++ ep)[j]? = some p' ∧
        SamePopulation rels (c.world.rels ++ er) (src n) p') ∧
      (∀ p' ∈ ep, ∃ n ∈ names, SamePopulation rels (c.world.rels ++ er) (src n) p') ∧
      ∀ r' ∈ er, ∃ r ∈ rels, SameRelationship r r' := by
  induction names generalizing c with
  | nil => exact ⟨[], [], c.populations, by simp [loadPopulations, pure, Except.pure], fun _ _ => rfl, by simp, by simp,
      by simp⟩
  | cons n names ih =>
    obtain ⟨hst, rt, hrt, hv⟩ := hp n (by simp)
    obtain ⟨L, hL, hsame, hnew⟩ := samePopulation_attached hF so R env env' hst hrt hv c.world.rels
    obtain ⟨er, ep, d, hl, hd1, hd2, hd3, hd4⟩ := ih (List.nodup_cons.1 hn).2 (attachLoaded c n L)
      fun m hm => hp m (List.mem_cons_of_mem _ hm)
    have hnn := (List.nodup_cons.1 hn).1
    refine ⟨L.relationships.map Prod.snd ++ er, [{
        ids := L.ids, size := L.ids.length, attributes := L.attributes
        relationships := L.relationships.zipIdx.map fun x => (x.1.1, c.world.rels.length + x.2) }] ++ ep,
      d, ?_, ?_, ?_, ?_, ?_⟩
    · rw [loadPopulations, List.foldlM_cons, hL, bind_ok]
      refine Eq.trans hl ?_
      simp only [attachLoaded, List.append_assoc]
    · intro m hm
      rw [List.mem_cons, not_or] at hm
      rw [hd1 m hm.2]
      exact (Dict.get?_set _ _ _ _).trans (if_neg fun e => hm.1 e.symm)
    · intro m hm
      rw [← List.append_assoc, ← List.append_assoc]
      rcases List.mem_cons.1 hm with rfl | hm
      · refine ⟨c.world.pops.length, {
          ids := L.ids, size := L.ids.length, attributes := L.attributes
          relationships := L.relationships.zipIdx.map fun x => (x.1.1, c.world.rels.length + x.2) },
          ?_, ?_, samePopulation_extend hsame⟩
        · rw [hd1 m hnn]
          exact (Dict.get?_set _ _ _ _).trans (if_pos rfl)
        · rw [List.append_assoc, List.getElem?_append_right (le_refl _)]
          simp
      · exact hd2 m hm
    · intro p' hp'
      rw [← List.append_assoc]
      rcases List.mem_append.1 hp' with hp' | hp'
      · rw [List.mem_singleton] at hp'
        subst hp'
        exact ⟨n, by simp, samePopulation_extend hsame⟩
      · obtain ⟨m, hm, h⟩ := hd3 p' hp'
        exact ⟨m, List.mem_cons_of_mem _ hm, h⟩
    · intro r' hr'
      rcases List.mem_append.1 hr' with hr' | hr'
      · exact hnew r' hr'
      · exact hd4 r' hr'

/-- the populations found in the folder -/
theorem listPopulations_spec (so : SetOrder String) {fs : FS} {db : Path} {name : String}
    {l : List (String × (Path → Option Node))} (hne : l ≠ [])
    (hdir : ∀ x ∈ l, x.2 [] = some .dir)
    (hv : ∀ r, Dict.get? fs (populationsFolder db name ++ r) = foldersView l r) :
    ∃ names, listPopulations so fs db name = .ok names ∧ names.Nodup ∧
      ∀ n, n ∈ names ↔ n ∈ l.map Prod.fst := by
  have h0 := hv []
  rw [List.append_nil, foldersView, if_neg hne] at h0
  have hsub : ∀ n, Dict.get? fs (populationsFolder db name ++ [n]) =
      if n ∈ l.map Prod.fst then some .dir else none := by
    intro n
    rw [hv, foldersView]
    cases hg : Dict.get? l n with
    | none => exact (if_neg (Dict.get?_eq_none_iff.1 hg)).symm
    | some v =>
      have := Dict.get?_mem hg
      rw [if_pos (List.mem_map.2 ⟨_, this, rfl⟩)]
      exact hdir _ this
  refine ⟨_, by rw [listPopulations, FS.list, if_pos (FS.isDir_of h0), bind_ok], (so.nodup _).filter _, ?_⟩
  intro n
  rw [List.mem_filter, so.mem, FS.mem_children_get?, FS.isDir, hsub]
  by_cases h : n ∈ l.map Prod.fst
  · simp [h]
  · simp [h]

theorem gensView_file {l : List (String × String × Text)} {cls f : String} {n : Node}
    (h : gensView l [cls, f] = some n) : ∃ x ∈ l, x.2.1 = cls ∧ x.1 ++ ".json" = f ∧ n = .file x.2.2 := by
  rw [gensView, Option.map_eq_some_iff] at h
  obtain ⟨x, hx, rfl⟩ := h
  have := List.find?_some hx
  rw [decide_eq_true_eq] at this
  exact ⟨x, List.mem_of_find?_eq_some hx, this.1, this.2, rfl⟩

theorem gensView_mem {l : List (String × String × Text)} (hn : (l.map Prod.fst).Nodup)
    {x : String × String × Text} (hx : x ∈ l) :
    gensView l [x.2.1, x.1 ++ ".json"] = some (.file x.2.2) := by
  cases hg : gensView l [x.2.1, x.1 ++ ".json"] with
  | none =>
    rw [gensView, Option.map_eq_none_iff, List.find?_eq_none] at hg
    exact absurd (hg x hx) (by simp)
  | some n =>
    obtain ⟨y, hy, -, h2, rfl⟩ := gensView_file hg
    rw [nodup_fst_eq hn hy hx (json_inj h2)]

/-- the generators found in the folder -/
theorem listGenerators_spec (so : SetOrder String) {fs : FS} {db : Path} {name : String}
    {l : List (String × String × Text)} (hn : (l.map Prod.fst).Nodup)
    (hdot : ∀ x ∈ l, '.' ∉ x.1.toList)
    (hv : ∀ r, Dict.get? fs (generatorsFolder db name ++ r) = gensView l r) :
    ∃ gs, listGenerators so fs db name = .ok gs ∧ (gs.map Prod.snd).Nodup ∧
      ∀ cls id, (cls, id) ∈ gs ↔ ∃ t, (id, cls, t) ∈ l := by
  have h0 := hv []
  rw [List.append_nil, gensView] at h0
  by_cases hne : l = []
  · subst hne
    rw [if_pos rfl] at h0
    exact ⟨[], by rw [listGenerators, if_neg (by simp [FS.not_pathExists_of h0])], by simp, by simp⟩
  · rw [if_neg hne] at h0
    have htype : ∀ type ∈ so.order (fs.children (generatorsFolder db name)),
        Dict.get? fs (generatorsFolder db name ++ [type]) = some .dir := by
      intro type ht
      rw [so.mem, FS.mem_children_get?, hv, gensView] at ht
      rw [hv, gensView]
      split at ht
      · rw [if_pos ‹_›]
      · exact absurd rfl ht
    have hfile : ∀ type f, f ∈ so.order (fs.children (generatorsFolder db name ++ [type])) ↔
        ∃ x ∈ l, x.2.1 = type ∧ x.1 ++ ".json" = f := by
      intro type f
      rw [so.mem, FS.mem_children_get?, List.append_assoc, List.singleton_append, hv]
      constructor
      · intro h
        obtain ⟨n, h⟩ := Option.ne_none_iff_exists'.1 h
        obtain ⟨x, hx, h1, h2, -⟩ := gensView_file h
        exact ⟨x, hx, h1, h2⟩
      · rintro ⟨x, hx, rfl, rfl⟩
        rw [gensView_mem hn hx]
        simp
    refine ⟨((so.order (fs.children (generatorsFolder db name))).map fun type =>
      (so.order (fs.children (generatorsFolder db name ++ [type]))).map fun f => (type, beforeDot f)).flatten,
      ?_, ?_, ?_⟩
    · rw [listGenerators, if_pos (FS.pathExists_of h0), FS.list, if_pos (FS.isDir_of h0), bind_ok,
        mapM_ok_of_forall, bind_ok]
      intro type ht
      rw [FS.list, if_pos (FS.isDir_of (htype type ht)), bind_ok]
    · refine List.Nodup.map_on ?_ ?_
      · rintro ⟨c1, i1⟩ h1 ⟨c2, i2⟩ h2 e
        simp only [List.mem_flatten, List.mem_map, exists_exists_and_eq_and, Prod.mk.injEq] at h1 h2
        obtain ⟨_, -, f1, hf1, rfl, rfl⟩ := h1
        obtain ⟨_, -, f2, hf2, rfl, rfl⟩ := h2
        obtain ⟨x, hx, rfl, rfl⟩ := (hfile _ _).1 hf1
        obtain ⟨y, hy, rfl, rfl⟩ := (hfile _ _).1 hf2
        simp only [beforeDot_json (hdot x hx), beforeDot_json (hdot y hy)] at e ⊢
        rw [nodup_fst_eq hn hx hy e]
      · rw [List.nodup_flatten]
        constructor
        · intro l' hl'
          obtain ⟨type, -, rfl⟩ := List.mem_map.1 hl'
          refine List.Nodup.map_on ?_ (so.nodup _)
          intro f1 hf1 f2 hf2 e
          obtain ⟨x, hx, -, rfl⟩ := (hfile _ _).1 hf1
          obtain ⟨y, hy, -, rfl⟩ := (hfile _ _).1 hf2
          simp only [beforeDot_json (hdot x hx), beforeDot_json (hdot y hy), Prod.mk.injEq, true_and] at e
          rw [e]
        · rw [List.pairwise_map]
          refine (so.nodup (fs.children (generatorsFolder db name))).imp ?_
          intro a b hab z hza hzb
          obtain ⟨_, -, rfl⟩ := List.mem_map.1 hza
          obtain ⟨_, -, e⟩ := List.mem_map.1 hzb
          exact hab (congrArg Prod.fst e).symm
    · intro cls id
      simp only [List.mem_flatten, List.mem_map, exists_exists_and_eq_and, Prod.mk.injEq]
      constructor
      · rintro ⟨type, -, f, hf, rfl, rfl⟩
        obtain ⟨x, hx, rfl, rfl⟩ := (hfile _ _).1 hf
        rw [beforeDot_json (hdot x hx)]
        exact ⟨x.2.2, hx⟩
      · rintro ⟨t, ht⟩
        refine ⟨cls, ?_, id ++ ".json", (hfile _ _).2 ⟨_, ht, rfl, rfl⟩, rfl, beforeDot_json (hdot _ ht)⟩
        rw [so.mem, FS.mem_children_get?, hv, gensView, if_pos]
        · simp
        · rw [List.any_eq_true]
          exact ⟨_, ht, by simp⟩

/-- the loop on the generators -/
theorem loadGenerators_spec {fs : FS} {db : Path} (gs : List (String × String))
    (hn : (gs.map Prod.snd).Nodup) (c : Circus σ γ) (P : String → γ → Prop)
    (hfresh : ∀ x ∈ gs, x.2 ∉ c.generators.map Prod.fst)
    (hg : ∀ x ∈ gs, ∃ t g, fs.read (generatorsFolder db c.name ++ [x.1, x.2 ++ ".json"]) = .ok t ∧
      D.loadGen x.1 (.ok t) = .ok g ∧ P x.2 g) :
    ∃ eg d, loadGenerators D fs db c gs = .ok { c with
        world := { c.world with clock := { c.world.clock with listeners := c.world.clock.listeners ++ eg } }
        generators := d } ∧
      (∀ id, id ∉ gs.map Prod.snd → Dict.get? d id = Dict.get? c.generators id) ∧
      ∀ x ∈ gs, ∃ j g, Dict.get? d x.2 = some j ∧ (c.world.clock.listeners ++ eg)[j]? = some g ∧ P x.2 g := by
  induction gs generalizing c with
  | nil => exact ⟨[], c.generators, by simp [loadGenerators, pure, Except.pure], fun _ _ => rfl, by simp⟩
  | cons x gs ih =>
    obtain ⟨t, g, h1, h2, h3⟩ := hg x (by simp)
    rw [List.map_cons, List.nodup_cons] at hn
    have hx := hfresh x (by simp)
    have hset : Dict.set c.generators x.2 c.world.gens.length = c.generators ++ [(x.2, c.world.gens.length)] :=
      Dict.set_new hx
    have hat : attachGen c x.2 g = .ok { c with
        world := { c.world with clock := { c.world.clock with listeners := c.world.clock.listeners ++ [g] } }
        generators := Dict.set c.generators x.2 c.world.gens.length } := by
      rw [attachGen, if_neg]
      rw [Dict.contains, Dict.get?_eq_none_iff.2 hx]
      simp
    obtain ⟨eg, d, hl, hd1, hd2⟩ := ih hn.2 { c with
        world := { c.world with clock := { c.world.clock with listeners := c.world.clock.listeners ++ [g] } }
        generators := Dict.set c.generators x.2 c.world.gens.length } (by
      intro y hy
      show y.2 ∉ (Dict.set c.generators x.2 c.world.gens.length).map Prod.fst
      rw [hset, List.map_append, List.mem_append, not_or]
      refine ⟨hfresh y (List.mem_cons_of_mem _ hy), ?_⟩
      simp only [List.map_cons, List.map_nil, List.mem_singleton]
      rintro e
      exact hn.1 (List.mem_map.2 ⟨y, hy, e⟩)) (fun y hy => hg y (List.mem_cons_of_mem _ hy))
    refine ⟨[g] ++ eg, d, ?_, ?_, ?_⟩
    · rw [loadGenerators, List.foldlM_cons, loadGenerator, h1, h2, bind_ok, hat, bind_ok]
      refine Eq.trans hl ?_
      simp only [List.append_assoc]
    · intro id hid
      rw [List.map_cons, List.mem_cons, not_or] at hid
      rw [hd1 id hid.2]
      exact (Dict.get?_set _ _ _ _).trans (if_neg fun e => hid.1 e.symm)
    · intro y hy
      rw [← List.append_assoc]
      rcases List.mem_cons.1 hy with rfl | hy
      · refine ⟨c.world.gens.length, g, ?_, ?_, h3⟩
        · rw [hd1 _ hn.1]
          exact (Dict.get?_set _ _ _ _).trans (if_pos rfl)
        · rw [List.append_assoc]
          have : c.world.gens.length = c.world.clock.listeners.length := rfl
          rw [this, List.getElem?_append_right (le_refl _)]
          simp
      · exact hd2 y hy

end Db
end Trumania
