import Verif.Proofs.DbFiles

/-!
# What the saving functions write
-/

namespace Trumania
open Spec

theorem csv_inj {a b : String} (h : a ++ ".csv" = b ++ ".csv") : a = b := by
  have h3 := congrArg String.toList h
  simp only [String.toList_append] at h3
  exact String.toList_injective (List.append_cancel_right h3)

theorem json_inj {a b : String} (h : a ++ ".json" = b ++ ".json") : a = b := by
  have h3 := congrArg String.toList h
  simp only [String.toList_append] at h3
  exact String.toList_injective (List.append_cancel_right h3)

theorem forEach_cons {W α : Type} (f : α → Act W Unit) (a : α) (l : List α) :
    Act.forEach f (a :: l) = (f a >>= fun _ => Act.forEach f l) := rfl

namespace Population
variable {σ : Type} {F : TextFormat}

/-- a folder of CSV files, by relative path -/
def filesView (l : List (String × Text)) : Path → Option Node
  | [] => some .dir
  | [f] => (l.find? fun x => decide (x.1 ++ ".csv" = f)).map fun x => .file x.2
  | _ => none

/-- a folder of CSV files that only exists if there are files -/
def itemsView (l : List (String × Text)) (r : Path) : Option Node :=
  if l = [] then none else filesView l r

theorem filesView_snoc {done : List (String × Text)} {x : String × Text}
    (h : x.1 ∉ done.map Prod.fst) (r : Path) :
    filesView (done ++ [x]) r = if [x.1 ++ ".csv"] = r then some (.file x.2) else filesView done r := by
  match r with
  | [] => rfl
  | [f] =>
    rw [filesView, List.find?_append, filesView]
    by_cases hf : x.1 ++ ".csv" = f
    · have h0 : done.find? (fun x => decide (x.1 ++ ".csv" = f)) = none := by
        rw [List.find?_eq_none]
        intro y hy
        simp only [decide_eq_true_eq]
        intro e
        rw [← hf] at e
        exact h (List.mem_map.2 ⟨y, hy, csv_inj e⟩)
      rw [h0, if_pos (by rw [hf])]
      simp [hf]
    · have hf' : ¬ [x.1 ++ ".csv"] = [f] := by simpa using hf
      rw [if_neg hf']
      simp [hf]
  | f :: g :: r =>
    rw [filesView, filesView, if_neg (by simp)]
    · simp
    · simp
    · simp
    · simp

theorem writeFiles_spec {folder : Path} (l done : List (String × Text)) (fs : FS)
    (hn : ((done ++ l).map Prod.fst).Nodup)
    (hv : ∀ r, Dict.get? fs (folder ++ r) = filesView done r) :
    ∃ fs', Act.forEach (fun x : String × Py Text => (do
        let t ← Act.ofPy x.2
        FS.writeFile (folder ++ [x.1 ++ ".csv"]) t : Act FS Unit)) (l.map fun x => (x.1, .ok x.2)) fs =
          .ok () fs' ∧
      (∀ r, Dict.get? fs' (folder ++ r) = filesView (done ++ l) r) ∧
      ∀ q, ¬ Below folder q → Dict.get? fs' q = Dict.get? fs q := by
  induction l generalizing done fs with
  | nil => exact ⟨fs, rfl, by simpa using hv, fun _ _ => rfl⟩
  | cons x l ih =>
    have hx : x.1 ∉ done.map Prod.fst := by
      intro hm
      rw [List.map_append, List.nodup_append] at hn
      exact hn.2.2 x.1 hm x.1 (by simp) rfl
    have hnone : Dict.get? fs (folder ++ [x.1 ++ ".csv"]) = none := by
      rw [hv, filesView]
      have h0 : done.find? (fun y => decide (y.1 ++ ".csv" = x.1 ++ ".csv")) = none := by
        rw [List.find?_eq_none]
        intro y hy
        simp only [decide_eq_true_eq]
        intro e
        exact hx (List.mem_map.2 ⟨y, hy, csv_inj e⟩)
      rw [h0]; rfl
    obtain ⟨fs1, h1, hv1⟩ := FS.writeFile_view (t := x.2) hnone (by simp) (by
      rw [List.dropLast_concat]
      have := hv []
      rw [List.append_nil] at this
      rw [this]; rfl)
    obtain ⟨fs2, h2, hv2, hf2⟩ := ih (done ++ [x]) fs1 (by simpa using hn) (by
      intro r
      rw [hv1, filesView_snoc hx]
      by_cases hr : [x.1 ++ ".csv"] = r
      · rw [if_pos hr, if_pos (by rw [hr])]
      · rw [if_neg hr, if_neg (fun e => hr (List.append_cancel_left e)), hv])
    refine ⟨fs2, ?_, by simpa using hv2, ?_⟩
    · rw [List.map_cons, forEach_cons]
      refine (Act.bind_ok (a := ()) (w' := fs1) ?_).trans h2
      exact (Act.bind_ok (Act.ofPy_ok rfl fs)).trans h1
    · intro q hq
      rw [hf2 q hq, hv1, if_neg]
      rintro rfl
      exact hq (FS.below_append _ _)

theorem saveItems_spec {folder : Path} (hne : folder ≠ []) (l : List (String × Text)) (fs : FS)
    (hn : (l.map Prod.fst).Nodup) (hclean : ∀ r, Dict.get? fs (folder ++ r) = none)
    (hd : Dict.get? fs folder.dropLast = some .dir) :
    ∃ fs', saveItems folder (l.map fun x => (x.1, .ok x.2)) fs = .ok () fs' ∧
      (∀ r, Dict.get? fs' (folder ++ r) = itemsView l r) ∧
      ∀ q, ¬ Below folder q → Dict.get? fs' q = Dict.get? fs q := by
  by_cases hl : l = []
  · subst hl
    exact ⟨fs, rfl, hclean, fun _ _ => rfl⟩
  · have hc := hclean []
    rw [List.append_nil] at hc
    obtain ⟨fs1, h1, hv1⟩ := FS.mkdir_view hc hne hd
    obtain ⟨fs2, h2, hv2, hf2⟩ := writeFiles_spec (folder := folder) l [] fs1 (by simpa using hn) (by
      intro r
      rw [hv1]
      match r with
      | [] => simp [filesView]
      | [f] => rw [if_neg (by simp), hclean]; rfl
      | f :: g :: r =>
        rw [if_neg (by simp), hclean]; rfl)
    refine ⟨fs2, ?_, ?_, ?_⟩
    · rw [saveItems, if_neg (by simpa using hl)]
      exact (Act.bind_ok h1).trans h2
    · intro r
      rw [hv2, itemsView, if_neg hl, List.nil_append]
    · intro q hq
      rw [hf2 q hq, hv1, if_neg]
      rintro rfl
      exact hq (FS.below_refl _)

/-- the folder of a population, by relative path -/
def popView (ids : Text) (attrs rels : List (String × Text)) : Path → Option Node
  | [] => some .dir
  | a :: r =>
    if a = "ids.csv" then (if r = [] then some (.file ids) else none)
    else if a = "attributes" then itemsView attrs r
    else if a = "relationships" then itemsView rels r
    else none

/-- texts of the relationships of a population -/
def RelTexts (F : TextFormat) (env : Orders) (rels : List (Relationship σ)) (p : Population)
    (l : List (String × Text)) : Prop :=
  List.Forall₂ (fun x y => x.1 = y.1 ∧ relText F env rels x.2 = .ok y.2) p.relationships l

/-- texts of the attributes of a population -/
def attrTexts (F : TextFormat) (p : Population) : List (String × Text) :=
  p.attributes.map fun x => (x.1, x.2.saveText F)

theorem ensureNonExistingDir_absent (so : SetOrder String) {fuel : Nat} (hf : 0 < fuel) {p : Path} {fs : FS}
    (h : Dict.get? fs p = none) : FS.ensureNonExistingDir so fuel p fs = .ok () fs := by
  obtain ⟨k, rfl⟩ := Nat.exists_eq_succ_of_ne_zero (Nat.pos_iff_ne_zero.1 hf)
  rw [FS.ensureNonExistingDir, Act.bind_ok (FS.get_ok fs), if_neg (by simp [FS.not_pathExists_of h])]
  rfl

theorem relTexts_map {env : Orders} {rels : List (Relationship σ)} {p : Population}
    {l : List (String × Text)} (h : RelTexts F env rels p l) :
    (p.relationships.map fun x => (x.1, relText F env rels x.2)) = l.map fun x => (x.1, .ok x.2) := by
  rw [RelTexts] at h
  generalize p.relationships = d at h
  induction h with
  | nil => rfl
  | cons hx _ ih => rw [List.map_cons, List.map_cons, ih, hx.1, hx.2]

theorem relTexts_names {env : Orders} {rels : List (Relationship σ)} {p : Population}
    {l : List (String × Text)} (h : RelTexts F env rels p l) :
    l.map Prod.fst = p.relationships.map Prod.fst := by
  rw [RelTexts] at h
  generalize p.relationships = d at h
  induction h with
  | nil => rfl
  | cons hx _ ih => rw [List.map_cons, List.map_cons, ih, hx.1]

theorem saveTo_spec (so : SetOrder String) {fuel : Nat} (hf : 0 < fuel) (env : Orders)
    (rels : List (Relationship σ)) {folder : Path} (p : Population) (fs : FS)
    {rt : List (String × Text)} (hrt : RelTexts F env rels p rt)
    (ha : (p.attributes.map Prod.fst).Nodup) (hr : (p.relationships.map Prod.fst).Nodup)
    (hw : FS.Way fs folder) (hclean : ∀ r, Dict.get? fs (folder ++ r) = none) :
    ∃ fs', p.saveTo F so fuel env rels folder fs = .ok () fs' ∧
      (∀ r, Dict.get? fs' (folder ++ r) = popView (idsText F p.ids) (attrTexts F p) rt r) ∧
      ∀ q, ¬ Below folder q → (Below q folder → Dict.get? fs' q = some .dir) ∧
        (¬ Below q folder → Dict.get? fs' q = Dict.get? fs q) := by
  have hc0 := hclean []
  rw [List.append_nil] at hc0
  obtain ⟨fs1, h1, hv1⟩ := FS.makedirs_view hw hc0
  have hd1 : Dict.get? fs1 folder = some .dir := (hv1 folder).1 (FS.below_refl _)
  have hb1 : ∀ r, r ≠ [] → Dict.get? fs1 (folder ++ r) = none := by
    intro r hr
    rw [(hv1 _).2, hclean]
    rintro ⟨s, hs⟩
    have := congrArg List.length hs
    simp at this
    exact hr this.1
  obtain ⟨fs2, h2, hv2⟩ := FS.writeFile_view (fs := fs1) (p := folder ++ ["ids.csv"])
    (t := idsText F p.ids) (hb1 _ (by simp)) (by simp) (by rw [List.dropLast_concat]; exact hd1)
  have hne2 : ∀ (a : String) (r : Path), folder ++ ["ids.csv"] ≠ folder ++ [a] ++ r ∨ (a = "ids.csv" ∧ r = []) := by
    intro a r
    by_cases h : a = "ids.csv" ∧ r = []
    · exact .inr h
    · left
      intro e
      rw [List.append_assoc] at e
      have e := List.append_cancel_left e
      simp at e
      exact h ⟨e.1.symm, e.2⟩
  have hd2 : Dict.get? fs2 folder = some .dir := by
    rw [hv2, if_neg (by simp), hd1]
  obtain ⟨fs3, h3, hv3, hf3⟩ := saveItems_spec (folder := folder ++ ["attributes"]) (by simp) (attrTexts F p) fs2
    (by rw [attrTexts, List.map_map]; exact ha) (by
      intro r
      rw [hv2, if_neg, List.append_assoc, hb1 _ (by simp)]
      rcases hne2 "attributes" r with h | h
      · exact h
      · exact absurd h.1 (by decide)) (by rw [List.dropLast_concat]; exact hd2)
  have hnot : ∀ (a b : String) (r : Path), a ≠ b → ¬ Below (folder ++ [a]) (folder ++ [b] ++ r) := by
    rintro a b r hab ⟨s, hs⟩
    simp at hs
    exact hab hs.1.symm
  obtain ⟨fs4, h4, hv4, hf4⟩ := saveItems_spec (folder := folder ++ ["relationships"]) (by simp) rt fs3
    (by rw [relTexts_names hrt]; exact hr) (by
      intro r
      rw [hf3 _ (hnot _ _ _ (by decide)), hv2, if_neg, List.append_assoc, hb1 _ (by simp)]
      rcases hne2 "relationships" r with h | h
      · exact h
      · exact absurd h.1 (by decide)) (by
      rw [List.dropLast_concat, hf3 _ (FS.not_below_snoc _ _)]; exact hd2)
  refine ⟨fs4, ?_, ?_, ?_⟩
  · rw [saveTo, Act.bind_ok (ensureNonExistingDir_absent so hf hc0), Act.bind_ok h1, Act.bind_ok h2]
    refine (Act.bind_ok (a := ()) (w' := fs3) ?_).trans ?_
    · rw [← h3, attrTexts, List.map_map]; rfl
    · rw [relTexts_map hrt]; exact h4
  · intro r
    match r with
    | [] =>
      rw [List.append_nil, hf4 _ (FS.not_below_snoc _ _), hf3 _ (FS.not_below_snoc _ _), hd2]
      rfl
    | a :: r =>
      have e : folder ++ a :: r = folder ++ [a] ++ r := by simp
      rw [e, popView]
      by_cases hR : a = "relationships"
      · subst hR
        rw [hv4, if_neg (by decide), if_neg (by decide), if_pos rfl]
      · rw [hf4 _ (hnot _ _ _ (Ne.symm hR))]
        by_cases hA : a = "attributes"
        · subst hA
          rw [hv3, if_neg (by decide), if_pos rfl]
        · rw [hf3 _ (hnot _ _ _ (Ne.symm hA)), hv2, List.append_assoc, hb1 _ (by simp), if_neg hA, if_neg hR]
          by_cases hI : a = "ids.csv"
          · subst hI
            rw [if_pos rfl]
            by_cases hr : r = []
            · subst hr; simp
            · rw [if_neg hr, if_neg (by simpa using fun h => hr h)]
          · rw [if_neg hI, if_neg]
            intro e
            have := List.append_cancel_left e
            simp at this
            exact hI this.1.symm
  · intro q hq
    have hnb : ∀ a : String, ¬ Below (folder ++ [a]) q := fun a h =>
      hq (FS.below_trans (FS.below_append folder [a]) h)
    have he : Dict.get? fs4 q = Dict.get? fs1 q := by
      rw [hf4 q (hnb _), hf3 q (hnb _), hv2, if_neg]
      rintro rfl
      exact hq (FS.below_append _ _)
    rw [he]
    exact hv1 q

end Population

namespace Db
open Population
variable {σ γ : Type} {D : DbFormat γ}

/-- a folder of folders that only exists if there are folders, by relative path -/
def foldersView (l : List (String × (Path → Option Node))) : Path → Option Node
  | [] => if l = [] then none else some .dir
  | n :: r =>
    match Dict.get? l n with
    | some v => v r
    | none => none

/-- the folder of the populations -/
def PopViews (D : DbFormat γ) (env : Orders) (c : Circus σ γ)
    (l : List (String × (Path → Option Node))) (d : Dict String Nat) : Prop :=
  List.Forall₂ (fun x y => x.1 = y.1 ∧ ∃ p rt, c.world.pops[x.2]? = some p ∧
    RelTexts D.text env c.world.rels p rt ∧ (p.attributes.map Prod.fst).Nodup ∧
    (p.relationships.map Prod.fst).Nodup ∧
    y.2 = popView (idsText D.text p.ids) (attrTexts D.text p) rt) d l

theorem get?_one {β : Type} (y : String × β) (k : String) :
    Dict.get? [y] k = if y.1 = k then some y.2 else none := by
  obtain ⟨a, b⟩ := y
  by_cases h : a = k
  · subst h; simp [Dict.get?_cons]
  · simp [h, Dict.get?]

theorem below_two {base q : Path} {a b : String} (h : Below q (base ++ [a, b])) :
    q = base ++ [a, b] ∨ q = base ++ [a] ∨ Below q base := by
  have e : base ++ [a, b] = base ++ [a] ++ [b] := by simp
  rw [e] at h ⊢
  rcases FS.below_snoc h with h | h
  · exact .inl h
  · exact .inr (FS.below_snoc h)

theorem popViews_names {env : Orders} {c : Circus σ γ} {l : List (String × (Path → Option Node))}
    {d : Dict String Nat} (h : PopViews D env c l d) : l.map Prod.fst = d.map Prod.fst := by
  rw [PopViews] at h
  induction h with
  | nil => rfl
  | cons hx _ ih => rw [List.map_cons, List.map_cons, ih, hx.1]

theorem savePopulations_spec (so : SetOrder String) {fuel : Nat} (hf : 0 < fuel) (env : Orders) (db : Path)
    (c : Circus σ γ) (d : Dict String Nat) (l done : List (String × (Path → Option Node)))
    (hl : PopViews D env c l d) (hn : ((done ++ l).map Prod.fst).Nodup) (fs : FS)
    (hns : ∀ q, Below q (namespaceFolder db c.name) → Dict.get? fs q = some .dir)
    (hv : ∀ r, Dict.get? fs (populationsFolder db c.name ++ r) = foldersView done r) :
    ∃ fs', Act.forEach (fun x : String × Nat => (match c.world.pops[x.2]? with
      | some p => p.saveTo D.text so fuel env c.world.rels (populationsFolder db c.name ++ [x.1])
      | none => throw .attributeError : Act FS Unit)) d fs = .ok () fs' ∧
      (∀ r, Dict.get? fs' (populationsFolder db c.name ++ r) = foldersView (done ++ l) r) ∧
      ∀ q, ¬ Below (populationsFolder db c.name) q → Dict.get? fs' q = Dict.get? fs q := by
  rw [PopViews] at hl
  induction hl generalizing done fs with
  | nil => exact ⟨fs, rfl, by simpa using hv, fun _ _ => rfl⟩
  | @cons x y d l hxy hdl ih =>
    obtain ⟨hname, p, rt, hp, hrt, ha, hr, hy⟩ := hxy
    have hx : Dict.get? done x.1 = none := by
      rw [Dict.get?_eq_none_iff]
      intro hm
      rw [List.map_append, List.nodup_append] at hn
      exact hn.2.2 x.1 hm x.1 (by rw [hname]; simp) rfl
    have hpf : Dict.get? fs (populationsFolder db c.name) = foldersView done [] := by
      have := hv []
      rwa [List.append_nil] at this
    have hpath : populationsFolder db c.name ++ [x.1] = namespaceFolder db c.name ++ ["populations", x.1] := by
      simp [populationsFolder]
    have hclean : ∀ r, Dict.get? fs (populationsFolder db c.name ++ [x.1] ++ r) = none := by
      intro r
      rw [List.append_assoc, hv]
      simp only [List.singleton_append, foldersView, hx]
    have hway : FS.Way fs (populationsFolder db c.name ++ [x.1]) := by
      refine ⟨hns [] ⟨_, rfl⟩, ?_⟩
      intro q hq
      rw [hpath] at hq
      rcases below_two hq with rfl | rfl | hq
      · right
        rw [← hpath]
        have := hclean []
        rwa [List.append_nil] at this
      · have : Dict.get? fs (namespaceFolder db c.name ++ ["populations"]) = foldersView done [] := hpf
        rw [this, foldersView]
        split
        · exact .inr rfl
        · exact .inl rfl
      · exact .inl (hns q hq)
    obtain ⟨fs1, h1, hv1, hf1⟩ := saveTo_spec (F := D.text) so hf env c.world.rels p fs hrt ha hr hway hclean
    have hpf1 : Dict.get? fs1 (populationsFolder db c.name) = some .dir :=
      (hf1 _ (FS.not_below_snoc _ _)).1 (FS.below_append _ _)
    have hout : ∀ q, ¬ Below (populationsFolder db c.name) q → Dict.get? fs1 q = Dict.get? fs q := by
      intro q hq
      have hb : ¬ Below (populationsFolder db c.name ++ [x.1]) q := fun h =>
        hq (FS.below_trans (FS.below_append _ _) h)
      by_cases hq' : Below q (populationsFolder db c.name ++ [x.1])
      · rw [(hf1 q hb).1 hq']
        rw [hpath] at hq'
        rcases below_two hq' with rfl | rfl | h
        · exact absurd ⟨[x.1], hpath.symm⟩ hq
        · exact absurd (FS.below_refl _) hq
        · exact (hns q h).symm
      · exact (hf1 q hb).2 hq'
    obtain ⟨fs2, h2, hv2, hf2⟩ := ih (done ++ [y]) (by simpa using hn) fs1 (by
      intro q hq
      rw [hout, hns q hq]
      intro h
      exact FS.not_below_snoc (namespaceFolder db c.name) "populations" (FS.below_trans h hq)) (by
      intro r
      match r with
      | [] => rw [List.append_nil, hpf1]; simp [foldersView]
      | n :: r =>
        rw [foldersView, Dict.get?_append]
        by_cases hnx : n = x.1
        · subst hnx
          rw [hx]
          have e : populationsFolder db c.name ++ x.1 :: r = populationsFolder db c.name ++ [x.1] ++ r := by simp
          rw [e, hv1, ← hy]
          simp [get?_one, hname]
        · have e : populationsFolder db c.name ++ n :: r = populationsFolder db c.name ++ [n] ++ r := by simp
          have hb : ¬ Below (populationsFolder db c.name ++ [x.1]) (populationsFolder db c.name ++ n :: r) := by
            rintro ⟨s, hs⟩
            rw [List.append_assoc] at hs
            have := List.append_cancel_left hs
            simp at this
            exact hnx this.1
          have hb' : ¬ Below (populationsFolder db c.name ++ n :: r) (populationsFolder db c.name ++ [x.1]) := by
            rintro ⟨s, hs⟩
            rw [List.append_assoc] at hs
            have := List.append_cancel_left hs
            simp at this
            exact hnx this.1.symm
          rw [(hf1 _ hb).2 hb', hv, foldersView]
          have hyn : ¬ y.1 = n := by rw [← hname]; exact fun h => hnx h.symm
          cases hg : Dict.get? done n with
          | some v => rfl
          | none => simp [get?_one, hyn])
    refine ⟨fs2, ?_, by simpa using hv2, ?_⟩
    · rw [forEach_cons]
      refine (Act.bind_ok (a := ()) (w' := fs1) ?_).trans h2
      simp only [hp]
      exact h1
    · intro q hq
      rw [hf2 q hq, hout q hq]

/-- the folder of the generators, by relative path: id, class, text -/
def gensView (l : List (String × String × Text)) : Path → Option Node
  | [] => if l = [] then none else some .dir
  | [cls] => if l.any fun x => decide (x.2.1 = cls) then some .dir else none
  | [cls, f] => (l.find? fun x => decide (x.2.1 = cls ∧ x.1 ++ ".json" = f)).map fun x => .file x.2.2
  | _ => none

/-- files of the generators -/
def GenTexts (D : DbFormat γ) (c : Circus σ γ) (l : List (String × String × Text))
    (d : Dict String Nat) : Prop :=
  List.Forall₂ (fun x y => x.1 = y.1 ∧ ∃ g, c.world.gens[x.2]? = some g ∧ y.2.1 = D.className g ∧
    D.dumpGen g = .ok y.2.2) d l

theorem genTexts_names {c : Circus σ γ} {l : List (String × String × Text)}
    {d : Dict String Nat} (h : GenTexts D c l d) : l.map Prod.fst = d.map Prod.fst := by
  rw [GenTexts] at h
  induction h with
  | nil => rfl
  | cons hx _ ih => rw [List.map_cons, List.map_cons, ih, hx.1]

theorem gensView_snoc {done : List (String × String × Text)} {y : String × String × Text}
    (hy : y.1 ∉ done.map Prod.fst) (r : Path) :
    gensView (done ++ [y]) r =
      if r = [] ∨ r = [y.2.1] then some .dir
      else if r = [y.2.1, y.1 ++ ".json"] then some (.file y.2.2) else gensView done r := by
  match r with
  | [] => simp [gensView]
  | [cls] =>
    by_cases h : y.2.1 = cls
    · subst h; simp [gensView]
    · have h' : ¬ cls = y.2.1 := fun e => h e.symm
      have e : ((done ++ [y]).any fun x => decide (x.2.1 = cls)) =
          done.any fun x => decide (x.2.1 = cls) := by
        rw [List.any_append]; simp [h]
      rw [gensView, gensView, e]
      simp [h']
  | [cls, f] =>
    rw [if_neg (by simp), gensView, gensView, List.find?_append]
    by_cases h : y.2.1 = cls ∧ y.1 ++ ".json" = f
    · obtain ⟨rfl, rfl⟩ := h
      have h0 : done.find? (fun x => decide (x.2.1 = y.2.1 ∧ x.1 ++ ".json" = y.1 ++ ".json")) = none := by
        rw [List.find?_eq_none]
        intro z hz
        simp only [decide_eq_true_eq]
        intro e
        exact hy (List.mem_map.2 ⟨z, hz, json_inj e.2⟩)
      rw [h0]
      simp
    · have h' : ¬ ([cls, f] : Path) = [y.2.1, y.1 ++ ".json"] := by
        intro e
        simp at e
        exact h ⟨e.1.symm, e.2.symm⟩
      rw [if_neg h']
      have : [y].find? (fun x => decide (x.2.1 = cls ∧ x.1 ++ ".json" = f)) = none := by
        rw [List.find?_eq_none]
        intro z hz
        rw [List.mem_singleton] at hz
        subst hz
        simpa using h
      rw [this, Option.or_none]
  | a :: b :: c :: r =>
    simp [gensView]

theorem saveGenerators_spec (db : Path) (c : Circus σ γ) (d : Dict String Nat)
    (l done : List (String × String × Text)) (hl : GenTexts D c l d)
    (hn : ((done ++ l).map Prod.fst).Nodup) (fs : FS)
    (hns : ∀ q, Below q (namespaceFolder db c.name) → Dict.get? fs q = some .dir)
    (hv : ∀ r, Dict.get? fs (generatorsFolder db c.name ++ r) = gensView done r) :
    ∃ fs', Act.forEach (fun x : String × Nat => (match c.world.gens[x.2]? with
      | some g => saveGenerator D db c.name x.1 g
      | none => throw .attributeError : Act FS Unit)) d fs = .ok () fs' ∧
      (∀ r, Dict.get? fs' (generatorsFolder db c.name ++ r) = gensView (done ++ l) r) ∧
      ∀ q, ¬ Below (generatorsFolder db c.name) q → Dict.get? fs' q = Dict.get? fs q := by
  rw [GenTexts] at hl
  induction hl generalizing done fs with
  | nil => exact ⟨fs, rfl, by simpa using hv, fun _ _ => rfl⟩
  | @cons x y d l hxy hdl ih =>
    obtain ⟨hname, g, hg, hcls, hdump⟩ := hxy
    have hy : y.1 ∉ done.map Prod.fst := by
      intro hm
      rw [List.map_append, List.nodup_append] at hn
      exact hn.2.2 y.1 hm y.1 (by simp) rfl
    have hgf : Dict.get? fs (generatorsFolder db c.name) = gensView done [] := by
      have := hv []
      rwa [List.append_nil] at this
    have hpath : generatorsFolder db c.name ++ [D.className g] =
        namespaceFolder db c.name ++ ["generators", D.className g] := by
      simp [generatorsFolder]
    have hcl : Dict.get? fs (generatorsFolder db c.name ++ [D.className g]) = some .dir ∨
        Dict.get? fs (generatorsFolder db c.name ++ [D.className g]) = none := by
      rw [hv, gensView]
      split
      · exact .inl rfl
      · exact .inr rfl
    have hway : FS.Way fs (generatorsFolder db c.name ++ [D.className g]) := by
      refine ⟨hns [] ⟨_, rfl⟩, ?_⟩
      intro q hq
      rw [hpath] at hq
      rcases below_two hq with rfl | rfl | hq
      · rw [← hpath]; exact hcl
      · have : Dict.get? fs (namespaceFolder db c.name ++ ["generators"]) = gensView done [] := hgf
        rw [this, gensView]
        split
        · exact .inr rfl
        · exact .inl rfl
      · exact .inl (hns q hq)
    obtain ⟨fs1, h1, hv1⟩ := FS.ensureFolderExists_view hway (by
      intro hd q hq
      rw [hpath] at hq
      rcases below_two hq with rfl | rfl | hq
      · rw [← hpath]; exact hd
      · have e : Dict.get? fs (namespaceFolder db c.name ++ ["generators"]) = gensView done [] := hgf
        rw [e, gensView, if_neg]
        rintro rfl
        rw [hv] at hd
        simp [gensView] at hd
      · exact hns q hq)
    have hnb : ∀ f, ¬ Below (generatorsFolder db c.name ++ [D.className g, f])
        (generatorsFolder db c.name ++ [D.className g]) := by
      rintro f ⟨s, hs⟩
      have := congrArg List.length hs
      simp at this
    have hfile : Dict.get? fs1 (generatorsFolder db c.name ++ [D.className g, x.1 ++ ".json"]) = none := by
      rw [(hv1 _).2 (hnb _), hv, gensView]
      have h0 : done.find? (fun z => decide (z.2.1 = D.className g ∧ z.1 ++ ".json" = x.1 ++ ".json")) = none := by
        rw [List.find?_eq_none]
        intro z hz
        simp only [decide_eq_true_eq]
        intro e
        exact hy (List.mem_map.2 ⟨z, hz, (json_inj e.2).trans hname⟩)
      rw [h0]; rfl
    obtain ⟨fs2, h2, hv2⟩ := FS.writeFile_view (t := y.2.2) hfile (by simp) (by
      have e : generatorsFolder db c.name ++ [D.className g, x.1 ++ ".json"] =
        generatorsFolder db c.name ++ [D.className g] ++ [x.1 ++ ".json"] := by simp
      rw [e, List.dropLast_concat]
      exact (hv1 _).1 (FS.below_refl _))
    have hout : ∀ q, ¬ Below (generatorsFolder db c.name) q → Dict.get? fs2 q = Dict.get? fs q := by
      intro q hq
      rw [hv2, if_neg (by rintro rfl; exact hq (FS.below_append _ _))]
      by_cases hq' : Below q (generatorsFolder db c.name ++ [D.className g])
      · rw [(hv1 q).1 hq']
        rw [hpath] at hq'
        rcases below_two hq' with rfl | rfl | h
        · exact absurd ⟨[D.className g], hpath.symm⟩ hq
        · exact absurd (FS.below_refl _) hq
        · exact (hns q h).symm
      · exact (hv1 q).2 hq'
    obtain ⟨fs3, h3, hv3, hf3⟩ := ih (done ++ [y]) (by simpa using hn) fs2 (by
      intro q hq
      rw [hout, hns q hq]
      intro h
      exact FS.not_below_snoc (namespaceFolder db c.name) "generators" (FS.below_trans h hq)) (by
      intro r
      rw [gensView_snoc hy, hv2]
      by_cases hr1 : r = [] ∨ r = [y.2.1]
      · rw [if_pos hr1, if_neg, (hv1 _).1]
        · rcases hr1 with rfl | rfl
          · rw [List.append_nil]; exact FS.below_append _ _
          · rw [hcls]; exact FS.below_refl _
        · intro e
          have := List.append_cancel_left e
          rcases hr1 with rfl | rfl <;> simp at this
      · rw [if_neg hr1]
        by_cases hr2 : r = [y.2.1, y.1 ++ ".json"]
        · rw [if_pos hr2, if_pos]
          rw [hr2, hcls, hname]
        · rw [if_neg hr2, if_neg, (hv1 _).2, hv]
          · rintro ⟨s, hs⟩
            rw [List.append_assoc] at hs
            have := List.append_cancel_left hs
            apply hr1
            match r, this with
            | [], _ => exact .inl rfl
            | [a], this => simp at this; right; rw [hcls, this.1]
          · intro e
            have := List.append_cancel_left e
            apply hr2
            rw [← this, hcls, hname])
    refine ⟨fs3, ?_, by simpa using hv3, ?_⟩
    · rw [forEach_cons]
      refine (Act.bind_ok (a := ()) (w' := fs2) ?_).trans h3
      simp only [hg]
      rw [saveGenerator, Act.bind_ok h1, Act.bind_ok (Act.ofPy_ok hdump _)]
      exact h2
    · intro q hq
      rw [hf3 q hq, hout q hq]

/-- the folder of a circus, by relative path -/
def circusView (config : Text) (pops : List (String × (Path → Option Node)))
    (gens : List (String × String × Text)) : Path → Option Node
  | [] => some .dir
  | a :: r =>
    if a = "circus_config.json" then (if r = [] then some (.file config) else none)
    else if a = "populations" then foldersView pops r
    else if a = "generators" then gensView gens r
    else none

/-- all that is written in a namespace that does not exist yet -/
theorem saveAll_spec (so : SetOrder String) {fuel : Nat} (hf : 0 < fuel) (env : Orders) (db : Path)
    (c : Circus σ γ) {l : List (String × (Path → Option Node))} {gl : List (String × String × Text)}
    (hl : PopViews D env c l c.populations) (hgl : GenTexts D c gl c.generators)
    (hn : (c.populations.map Prod.fst).Nodup) (hgn : (c.generators.map Prod.fst).Nodup) (fs : FS)
    (hw : FS.Way fs (namespaceFolder db c.name))
    (hclean : ∀ r, Dict.get? fs (namespaceFolder db c.name ++ r) = none) :
    ∃ fs', saveAll D so fuel env db c fs = .ok () fs' ∧
      (∀ r, Dict.get? fs' (namespaceFolder db c.name ++ r) =
        circusView (D.dumpConfig c.masterSeed c.start c.step) l gl r) ∧
      ∀ q, ¬ Below (namespaceFolder db c.name) q →
        (Below q (namespaceFolder db c.name) → Dict.get? fs' q = some .dir) ∧
        (¬ Below q (namespaceFolder db c.name) → Dict.get? fs' q = Dict.get? fs q) := by
  have hc0 := hclean []
  rw [List.append_nil] at hc0
  obtain ⟨fs1, h1, hv1⟩ := FS.ensureFolderExists_view hw (by rw [hc0]; intro h; cases h)
  generalize hns : namespaceFolder db c.name = ns at *
  have hb1 : ∀ r, r ≠ [] → Dict.get? fs1 (ns ++ r) = none := by
    intro r hr
    rw [(hv1 _).2, hclean]
    rintro ⟨s, hs⟩
    have := congrArg List.length hs
    simp at this
    exact hr this.1
  have hcfg : configFile db c.name = ns ++ ["circus_config.json"] := by rw [configFile, hns]
  have hpf : populationsFolder db c.name = ns ++ ["populations"] := by rw [populationsFolder, hns]
  have hgf : generatorsFolder db c.name = ns ++ ["generators"] := by rw [generatorsFolder, hns]
  obtain ⟨fs2, h2, hv2⟩ := FS.writeFile_view (fs := fs1) (p := ns ++ ["circus_config.json"])
    (t := D.dumpConfig c.masterSeed c.start c.step) (hb1 _ (by simp)) (by simp)
    (by rw [List.dropLast_concat]; exact (hv1 _).1 (FS.below_refl _))
  have hns2 : ∀ q, Below q ns → Dict.get? fs2 q = some .dir := by
    intro q hq
    rw [hv2, if_neg (by rintro rfl; exact FS.not_below_snoc _ _ hq)]
    exact (hv1 q).1 hq
  have hcfg2 : ∀ (a : String) (r : Path), a ≠ "circus_config.json" →
      Dict.get? fs2 (ns ++ a :: r) = none := by
    intro a r ha
    rw [hv2, if_neg, hb1 _ (by simp)]
    intro e
    have := List.append_cancel_left e
    simp at this
    exact ha this.1.symm
  obtain ⟨fs3, h3, hv3, hf3⟩ := savePopulations_spec (D := D) so hf env db c c.populations l [] hl
    (by rw [List.nil_append, popViews_names hl]; exact hn) fs2 (by rw [hns]; exact hns2) (by
      intro r
      rw [hpf, List.append_assoc, List.singleton_append, hcfg2 _ _ (by decide)]
      cases r with
      | nil => rfl
      | cons a r => rfl)
  rw [hpf] at hv3 hf3
  have hnot : ∀ (a b : String) (r : Path), a ≠ b → ¬ Below (ns ++ [a]) (ns ++ b :: r) := by
    rintro a b r hab ⟨s, hs⟩
    simp at hs
    exact hab hs.1.symm
  obtain ⟨fs4, h4, hv4, hf4⟩ := saveGenerators_spec (D := D) db c c.generators gl [] hgl
    (by rw [List.nil_append, genTexts_names hgl]; exact hgn) fs3 (by
      intro q hq
      rw [hns] at hq
      rw [hf3, hns2 q hq]
      intro h
      exact FS.not_below_snoc ns "populations" (FS.below_trans h hq)) (by
      intro r
      rw [hgf, List.append_assoc, List.singleton_append, hf3 _ (hnot _ _ _ (by decide)),
        hcfg2 _ _ (by decide)]
      match r with
      | [] => rfl
      | [a] => rfl
      | [a, b] => rfl
      | a :: b :: c :: r => rfl)
  rw [hgf] at hv4 hf4
  refine ⟨fs4, ?_, ?_, ?_⟩
  · rw [saveAll, hns, Act.bind_ok h1, hcfg, Act.bind_ok h2]
    exact (Act.bind_ok h3).trans h4
  · intro r
    match r with
    | [] =>
      rw [List.append_nil, hf4 _ (FS.not_below_snoc _ _), hf3 _ (FS.not_below_snoc _ _), hns2 _ (FS.below_refl _)]
      rfl
    | a :: r =>
      rw [circusView]
      have e : ns ++ a :: r = ns ++ [a] ++ r := by simp
      by_cases hG : a = "generators"
      · subst hG
        rw [e, hv4, if_neg (by decide), if_neg (by decide), if_pos rfl, List.nil_append]
      · rw [hf4 _ (hnot _ _ _ (Ne.symm hG))]
        by_cases hP : a = "populations"
        · subst hP
          rw [e, hv3, if_neg (by decide), if_pos rfl, List.nil_append]
        · rw [hf3 _ (hnot _ _ _ (Ne.symm hP)), if_neg hP, if_neg hG]
          by_cases hC : a = "circus_config.json"
          · subst hC
            rw [if_pos rfl, hv2]
            by_cases hr : r = []
            · subst hr; simp
            · rw [if_neg hr, if_neg, hb1 _ (by simp)]
              intro e
              have := List.append_cancel_left e
              simp at this
              exact hr this
          · rw [if_neg hC, hcfg2 _ _ hC]
  · intro q hq
    have hnb : ∀ a : String, ¬ Below (ns ++ [a]) q := fun a h =>
      hq (FS.below_trans (FS.below_append ns [a]) h)
    have he : Dict.get? fs4 q = Dict.get? fs1 q := by
      rw [hf4 q (hnb _), hf3 q (hnb _), hv2, if_neg]
      rintro rfl
      exact hq (FS.below_append _ _)
    rw [he]
    exact hv1 q

end Db
end Trumania
