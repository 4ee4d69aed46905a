import Verif.Model.Empirical
import Verif.Proofs.DbFrame
import Verif.Proofs.Choice
import Verif.Props.Db

/-!
# Empirical discrete generators, and generators that a circus cannot load
-/

namespace Trumania
open Spec Act

namespace Db
variable {σ γ : Type} {F : TextFormat}

/-! ### C98 -/

/-- the file of a distribution is read back -/
theorem readCsv_empiricalText (hF : F.Lawful) {dist : List Rat} {values : List Val}
    (hv : KeptValues F values) : readCsv (empiricalText F dist values) =
      .ok (["x".toList, "px".toList], (values.zip dist).map fun x => [F.val x.1, F.num x.2]) := by
  rw [empiricalText]
  apply C63_roundtrip_partial
  · refine ⟨by simp, by simp [CleanText], ?_⟩
    rintro ⟨t, ht, -⟩; simp at ht
  · rintro t ts e
    cases e
    rintro ⟨r, hr⟩; simp at hr
  · intro row hrow
    obtain ⟨x, hm, rfl⟩ := List.mem_map.1 hrow
    refine ⟨by simp, ?_, ?_⟩
    · intro t ht
      simp only [List.mem_cons, List.not_mem_nil, or_false] at ht
      rcases ht with rfl | rfl
      · exact TextFormat.clean_kept hF hv _ (List.of_mem_zip (a := x.1) (b := x.2) hm).1
      · exact hF.clean_num _
    · rintro ⟨t, ht, -⟩; simp at ht
  · intro row hrow
    obtain ⟨x, hm, rfl⟩ := List.mem_map.1 hrow
    rfl

/-- loading a file written by `save_empirical_discrete_generator` -/
theorem loadEmpirical_of (hF : F.Lawful) {dist : List Rat} {values : List Val}
    (hlen : dist.length = values.length) (hv : KeptValues F values) {fs : FS} {db : Path}
    {name genId : String}
    (h : fs.read (csvItemPath (empiricalFolder db name) genId) = .ok (empiricalText F dist values))
    (R : Rng σ) (seed : Int) :
    loadEmpirical F R fs db name genId seed = .ok (.choice values (some dist) (R.seed seed)) := by
  have h0 : ((values.zip dist).map fun x => [F.val x.1, F.num x.2]).map (fun row => row.getD 0 []) =
      values.map F.val := by
    rw [List.map_map, ← List.map_fst_zip (l₁ := values) (l₂ := dist) (by omega), List.map_map,
      List.map_fst_zip (by omega)]
    rfl
  have h1 : ((values.zip dist).map fun x => [F.val x.1, F.num x.2]).map (fun row => row.getD 1 []) =
      (dist.map Val.num).map F.val := by
    rw [List.map_map, List.map_map]
    conv_rhs => rw [← List.map_snd_zip (l₁ := values) (l₂ := dist) (by omega), List.map_map]
    rfl
  have hx : (["x".toList, "px".toList].findIdx fun c => c == "x".toList) = 0 := by decide
  have hp : (["x".toList, "px".toList].findIdx fun c => c == "px".toList) = 1 := by decide
  have hf : ∀ l : List Rat, (l.map Val.num).mapM F.toFloat = .ok l := by
    intro l
    induction l with
    | nil => rfl
    | cons a l ih => rw [List.map_cons, List.mapM_cons, TextFormat.toFloat, bind_ok, ih, bind_ok]; rfl
  rw [loadEmpirical, h, bind_ok, readCsv_empiricalText hF hv, bind_ok]
  rw [readColumn, if_pos (by simp), bind_ok, readColumn, if_pos (by simp), bind_ok]
  simp only [hx, hp, h0, h1]
  rw [TextFormat.infer_kept hF hv, TextFormat.infer_numNa hF (by simp), hf, bind_ok]

/-- **C98** A distribution whose total does not exceed 1 is saved, and loading it makes a generator that
draws from the same values with the same probabilities, from the state of the seed asked for. Only the file
and the folders on its way are written. -/
theorem C98_saved_distribution_restored (hF : F.Lawful) (db : Path) (name genId : String)
    (dist : List Rat) (values : List Val) (hlen : dist.length = values.length)
    (hsum : dist.sum - 1 < 1 / 1000000) (hv : KeptValues F values) (fs : FS) (ht : Tree fs)
    (hc : Creatable fs (db ++ [name, "generators", "empirical_discrete_gens"]))
    (hd : ¬ At fs (db ++ [name, "generators", "empirical_discrete_gens", genId ++ ".csv"]) .dir) :
    ∃ fs', saveEmpirical F db dist values name genId fs = .ok () fs' ∧
      (∀ (R : Rng σ) (seed : Int), loadEmpirical F R fs' db name genId seed =
        .ok (.choice values (some dist) (R.seed seed))) ∧
      (∀ q, Below q (db ++ [name, "generators", "empirical_discrete_gens"]) → Dict.get? fs' q = some .dir) ∧
      ∀ q, ¬ Below q (db ++ [name, "generators", "empirical_discrete_gens", genId ++ ".csv"]) →
        Dict.get? fs' q = Dict.get? fs q := by
  have e1 : empiricalFolder db name = db ++ [name, "generators", "empirical_discrete_gens"] := by
    simp [empiricalFolder, generatorsFolder, namespaceFolder]
  have e2 : csvItemPath (empiricalFolder db name) genId =
      db ++ [name, "generators", "empirical_discrete_gens", genId ++ ".csv"] := by
    rw [csvItemPath, e1]; simp
  have e3 : csvItemPath (empiricalFolder db name) genId = empiricalFolder db name ++ [genId ++ ".csv"] := rfl
  rw [← e1] at hc ⊢
  rw [← e2] at hd ⊢
  have hw := FS.way_of_creatable ht hc
  obtain ⟨fs1, h1, v1⟩ := FS.ensureFolderExists_view hw (by
    rintro he q ⟨r, hr⟩
    by_cases hr0 : r = []
    · rw [hr0, List.append_nil] at hr
      rw [← hr]; exact he
    · exact (FS.get?_iff ht.unique).2 (FS.tree_ancestor ht hr0 (by
        rw [← hr]; exact Dict.get?_mem he)))
  have hnb : ¬ Below (csvItemPath (empiricalFolder db name) genId) (empiricalFolder db name) :=
    FS.not_below_snoc _ _
  have hdir : fs1.isDir (empiricalFolder db name) = true := FS.isDir_of ((v1 _).1 (FS.below_refl _))
  have hnd : ¬ fs1.isDir (csvItemPath (empiricalFolder db name) genId) = true := by
    rw [FS.isDir, (v1 _).2 hnb]
    intro h
    apply hd
    split at h
    · next hg => exact Dict.get?_mem hg
    · cases h
  have hwr : FS.writeFile (csvItemPath (empiricalFolder db name) genId) (empiricalText F dist values) fs1 =
      .ok () (Dict.set fs1 (csvItemPath (empiricalFolder db name) genId)
        (.file (empiricalText F dist values))) := by
    rw [FS.writeFile, Act.bind_ok (FS.get_ok fs1), if_pos ⟨by simp [csvItemPath], hnd, by
      rw [e3, List.dropLast_concat]; exact hdir⟩]
    rfl
  refine ⟨Dict.set fs1 (csvItemPath (empiricalFolder db name) genId)
    (.file (empiricalText F dist values)), ?_, ?_, ?_, ?_⟩
  · rw [saveEmpirical, if_pos hsum, Act.bind_ok h1, if_pos hlen]
    exact hwr
  · intro R seed
    refine loadEmpirical_of hF hlen hv (FS.read_of ?_) R seed
    exact (Dict.get?_set _ _ _ _).trans (if_pos rfl)
  · intro q hq
    refine (Dict.get?_set _ _ _ _).trans ?_
    rw [if_neg (by rintro rfl; exact hnb hq)]
    exact (v1 q).1 hq
  · intro q hq
    refine (Dict.get?_set _ _ _ _).trans ?_
    rw [if_neg (by rintro rfl; exact hq (FS.below_refl _))]
    exact (v1 q).2 fun h => hq (FS.below_trans h (FS.below_append _ _))

/-- **C98** A distribution whose total exceeds 1 by a millionth or more is refused before anything is
written. -/
theorem C98_too_large_refused (db : Path) (name genId : String) (dist : List Rat) (values : List Val)
    (h : 1 + 1 / 1000000 ≤ dist.sum) (fs : FS) :
    saveEmpirical F db dist values name genId fs = .error .assertionError fs := by
  rw [saveEmpirical, if_neg (by
    intro h'
    linarith)]
  rfl

/-- `ensure_folder_exists` keeps the files, whether it succeeds or not -/
theorem ensureFolderExists_files {fs : FS} (ht : Tree fs) (p : Path) (q : Path) (t : Text) :
    At ((FS.ensureFolderExists p).after fs) q (.file t) ↔ At fs q (.file t) := by
  by_cases hp : fs.pathExists p = true
  · have hr : FS.ensureFolderExists p fs = .ok () fs := by
      rw [FS.ensureFolderExists, Act.bind_ok (FS.get_ok fs), if_pos hp]; rfl
    rw [Act.after_ok hr]
  · have hr : FS.ensureFolderExists p fs = FS.mkdirs p.inits fs := by
      rw [FS.ensureFolderExists, Act.bind_ok (FS.get_ok fs), if_neg hp, FS.makedirs,
        Act.bind_ok (FS.get_ok fs), if_neg hp]
    have ha : (FS.ensureFolderExists p).after fs = (FS.mkdirs p.inits).after fs := by
      rw [Act.after, Act.after, hr]
    rw [ha]
    obtain ⟨-, h1, h2⟩ := FS.mkdirs_after (l := p.inits) ht
    refine ⟨fun h => ?_, h1 q _⟩
    rcases h2 q _ h with h | ⟨h, -⟩
    · exact h
    · cases h

/-- **C98** Probabilities and values that are not in the same number are refused, and no file is written
or changed. -/
theorem C98_lengths_refused (db : Path) (name genId : String) (dist : List Rat) (values : List Val)
    (h : dist.length ≠ values.length) (fs : FS) (ht : Tree fs) :
    ∃ e fs', saveEmpirical F db dist values name genId fs = .error e fs' ∧
      ∀ q t, At fs' q (.file t) ↔ At fs q (.file t) := by
  rw [saveEmpirical]
  split
  · have hk := ensureFolderExists_files ht (empiricalFolder db name)
    cases hr : FS.ensureFolderExists (empiricalFolder db name) fs with
    | ok u fs1 =>
      rw [Act.bind_ok hr]
      rw [Act.after_ok hr] at hk
      exact ⟨.valueError, fs1, rfl, hk⟩
    | error e fs1 =>
      rw [Act.bind_err hr]
      rw [Act.after_error hr] at hk
      exact ⟨e, fs1, rfl, hk⟩
  · exact ⟨.assertionError, fs, rfl, fun _ _ => Iff.rfl⟩

/-- a draw with probabilities -/
theorem generate_choice (R : Rng σ) (dist : List Rat) (values : List Val) (s : σ) (n : Nat) :
    (AnyGen.choice values (some dist) s).generate R n = (do
      let (idx, s) ← R.choiceP s values.length n dist
      .ok ((← fancy values idx).map Cell.scalar, .choice values (some dist) s)) := by
  have hnn : ((n : Rat).den = 1 ∧ 0 ≤ (n : Rat)) := ⟨Rat.den_natCast n, Nat.cast_nonneg n⟩
  have hnum : (n : Rat).num.toNat = n := by simp
  rw [AnyGen.generate, if_pos hnn, choiceGenerate, hnum]
  cases R.choiceP s values.length n dist with
  | error e => rfl
  | ok r =>
    simp only [bind_ok]
    cases fancy values r.1 <;> rfl

/-- **C98** The generator loaded draws if and only if it has values, no probability is negative, and the
total is 1 up to the tolerance of numpy. In particular the totals below 1 that
`save_empirical_discrete_generator` accepts make a generator whose draws all raise. -/
theorem C98_draws_iff (R : Rng σ) (dist : List Rat) (values : List Val)
    (hlen : dist.length = values.length) (s : σ) (n : Nat) (hn : 0 < n) :
    (∃ r, (AnyGen.choice values (some dist) s).generate R n = .ok r) ↔
      values ≠ [] ∧ (∀ x ∈ dist, 0 ≤ x) ∧ |dist.sum - 1| ≤ 1 / 67108864 := by
  have habs : |dist.sum - 1| ≤ 1 / 67108864 ↔ ¬ (dist.sum - 1 > Rng.pTol ∨ 1 - dist.sum > Rng.pTol) := by
    rw [abs_le, Rng.pTol, not_or, not_lt, not_lt]
    constructor
    · rintro ⟨h1, h2⟩; exact ⟨h2, by linarith⟩
    · rintro ⟨h1, h2⟩; exact ⟨by linarith, h1⟩
  rw [generate_choice, habs]
  constructor
  · rintro ⟨r, hr⟩
    obtain ⟨⟨idx, s1⟩, h1, -⟩ := bind_eq_ok.1 hr
    rw [Rng.choiceP] at h1
    split at h1
    · cases h1
    split at h1
    · cases h1
    split at h1
    · cases h1
    split at h1
    · cases h1
    rename_i h2 h3 h4 h5
    refine ⟨?_, by simpa using h4, h5⟩
    rintro rfl
    exact h2 ⟨rfl, by omega⟩
  · rintro ⟨h2, h3, h4⟩
    have hc : ∃ idx s1, R.choiceP s values.length n dist = .ok (idx, s1) := by
      rw [Rng.choiceP, if_neg, if_neg (by simpa using hlen), if_neg (by simpa using h3), if_neg h4]
      · exact ⟨_, _, rfl⟩
      · rintro ⟨h, -⟩
        exact h2 (List.length_eq_zero_iff.1 h)
    obtain ⟨idx, s1, hc⟩ := hc
    obtain ⟨-, -, -, hr⟩ := R.choiceP_ok hc
    have hf : ∃ vs, fancy values idx = .ok vs := by
      refine ⟨_, fancy_ok (fun i hi => ?_)⟩
      obtain ⟨x, hx, -⟩ := hr i hi
      rw [← hlen]
      exact (List.getElem?_eq_some_iff.1 hx).1
    obtain ⟨vs, hf⟩ := hf
    exact ⟨_, by simp only [hc, bind_ok, hf]; rfl⟩

/-- **C98** What it draws are values saved with a positive probability. -/
theorem C98_draws_saved_values (R : Rng σ) (dist : List Rat) (values : List Val) (s : σ) (n : Nat)
    (cells : List Cell) (g : AnyGen σ)
    (h : (AnyGen.choice values (some dist) s).generate R n = .ok (cells, g)) :
    cells.length = n ∧ (∃ s', g = .choice values (some dist) s') ∧
      ∀ c ∈ cells, ∃ (i : Nat) (v : Val) (x : Rat),
        values[i]? = some v ∧ dist[i]? = some x ∧ 0 < x ∧ c = .scalar v := by
  rw [generate_choice] at h
  obtain ⟨⟨idx, s1⟩, h1, h2⟩ := bind_eq_ok.1 h
  obtain ⟨vs, h3, h4⟩ := bind_eq_ok.1 h2
  cases h4
  obtain ⟨-, hsize, -, hpos⟩ := R.choiceP_ok h1
  rw [fancy, mapM_ok_iff] at h3
  refine ⟨by rw [List.length_map, ← h3.length_eq, hsize], ⟨s1, rfl⟩, fun c hc => ?_⟩
  obtain ⟨v, hv, rfl⟩ := List.mem_map.1 hc
  obtain ⟨i, hi, hiv⟩ := forall₂_exists_left h3 hv
  obtain ⟨x, hx, hx0⟩ := hpos i hi
  refine ⟨i, v, x, ?_, hx, hx0, rfl⟩
  split at hiv
  · next hg => cases hiv; exact hg
  · cases hiv

/-! ### C99 -/

/-- **C99** A namespace that holds a generator of a type that `load_generator` refuses cannot be loaded. -/
theorem C99_refused_type_not_loaded (D : DbFormat γ) (so : SetOrder String) (R : Rng σ) (env : Orders)
    (fs : FS) (ht : Tree fs) (db : Path) (name type file : String) (n : Node)
    (hf : At fs (db ++ [name, "generators", type, file]) n)
    (hD : ∀ r g, D.loadGen type r ≠ .ok g) (c : Circus σ γ) :
    loadFromDb D so R env fs db name ≠ .ok c := by
  intro h
  have e1 : generatorsFolder db name = db ++ [name, "generators"] := by
    simp [generatorsFolder, namespaceFolder]
  have hg : Dict.get? fs (generatorsFolder db name) = some .dir := by
    rw [e1]
    exact (FS.get?_iff ht.unique).2 (FS.tree_ancestor ht (r := [type, file]) (by simp) (by simpa using hf))
  have hk : type ∈ fs.children (generatorsFolder db name) := by
    rw [FS.mem_children_get?, e1, Ne, FS.get?_none_iff]
    intro ha
    exact ha .dir (FS.tree_ancestor ht (r := [file]) (by simp) (by simpa using hf))
  have hk2 : file ∈ fs.children (generatorsFolder db name ++ [type]) := by
    rw [FS.mem_children_get?, e1, Ne, FS.get?_none_iff]
    intro ha
    exact ha n (by simpa using hf)
  simp only [loadFromDb, bind_eq_ok] at h
  obtain ⟨-, -, -, -, c0, -, -, -, c1, -, gs, hgs, hl⟩ := h
  have hmem : ∃ id, (type, id) ∈ gs := by
    rw [listGenerators, if_pos (FS.pathExists_of hg)] at hgs
    obtain ⟨types, h1, h2⟩ := bind_eq_ok.1 hgs
    obtain ⟨l, h3, h4⟩ := bind_eq_ok.1 h2
    cases h4
    rw [FS.list, if_pos (FS.isDir_of hg)] at h1
    cases h1
    obtain ⟨x, hx, h5⟩ := forall₂_exists_right (mapM_ok_iff.1 h3) ((so.mem _ _).2 hk)
    obtain ⟨files, h6, h7⟩ := bind_eq_ok.1 h5
    cases h7
    rw [FS.list] at h6
    split at h6
    · cases h6
      exact ⟨beforeDot file, List.mem_flatten.2 ⟨_, hx, List.mem_map.2 ⟨file, (so.mem _ _).2 hk2, rfl⟩⟩⟩
    · cases h6
  obtain ⟨id, hid⟩ := hmem
  clear hgs
  induction gs generalizing c1 with
  | nil => simp at hid
  | cons x gs ih =>
    rw [loadGenerators, List.foldlM_cons] at hl
    obtain ⟨c2, h1, h2⟩ := bind_eq_ok.1 hl
    rcases List.mem_cons.1 hid with rfl | hid
    · obtain ⟨g, h3, -⟩ := bind_eq_ok.1 h1
      exact hD _ _ h3
    · exact ih c2 h2 hid

/-- **C99** With the generators of the library: a namespace that holds an empirical distribution, or a
timer, or anything but `SequencialGenerator`s and `NumpyRandomGenerator`s, cannot be loaded. -/
theorem C99_other_generators_not_loaded (R : Rng σ) (dc : Int → Int → Int → Text)
    (lc : Text → Py (Int × Int × Int)) (enc : AnyGen.Doc σ → Text) (dec : Text → Py (AnyGen.Doc σ))
    (so : SetOrder String) (env : Orders) (fs : FS) (ht : Tree fs) (db : Path) (name type file : String)
    (n : Node) (hf : At fs (db ++ [name, "generators", type, file]) n)
    (h1 : type ≠ "SequencialGenerator") (h2 : type ≠ "NumpyRandomGenerator")
    (c : Circus σ (AnyGen σ)) :
    loadFromDb (AnyGen.dbFormat F R dc lc enc dec) so R env fs db name ≠ .ok c := by
  refine C99_refused_type_not_loaded _ so R env fs ht db name type file n hf (fun r g => ?_) c
  simp [AnyGen.dbFormat, AnyGen.ofDoc, h1, h2]

/-- **C99** Once an empirical distribution has been saved in the namespace of a circus, the circus cannot
be loaded. -/
theorem C99_after_saving_a_distribution (R : Rng σ) (dc : Int → Int → Int → Text)
    (lc : Text → Py (Int × Int × Int)) (enc : AnyGen.Doc σ → Text) (dec : Text → Py (AnyGen.Doc σ))
    (so : SetOrder String) (env : Orders) (fs fs' : FS) (ht : Tree fs) (db : Path) (name genId : String)
    (dist : List Rat) (values : List Val)
    (hs : saveEmpirical F db dist values name genId fs = .ok () fs') (c : Circus σ (AnyGen σ)) :
    loadFromDb (AnyGen.dbFormat F R dc lc enc dec) so R env fs' db name ≠ .ok c := by
  rw [saveEmpirical] at hs
  split at hs
  swap
  · cases hs
  obtain ⟨u, fs1, h1, h2⟩ := Act.bind_eq_ok.1 hs
  obtain ⟨ht1, -⟩ := FS.ensureFolderExists_ok ht h1
  split at h2
  swap
  · cases h2
  rcases FS.writeFile_cases ht1 (csvItemPath (empiricalFolder db name) genId) (empiricalText F dist values)
    with h3 | ⟨h3, -, h4, h5⟩
  · rw [h3] at h2; cases h2
  · rw [h5] at h2
    cases h2
    refine C99_other_generators_not_loaded R dc lc enc dec so env _ (FS.set_tree ht1 h4 fun _ => h3) db name
      "empirical_discrete_gens" (genId ++ ".csv") (.file (empiricalText F dist values)) ?_ (by decide)
      (by decide) c
    refine Dict.get?_mem ?_
    have e : db ++ [name, "generators", "empirical_discrete_gens", genId ++ ".csv"] =
        csvItemPath (empiricalFolder db name) genId := by
      simp [csvItemPath, empiricalFolder, generatorsFolder, namespaceFolder]
    rw [e]
    exact (Dict.get?_set _ _ _ _).trans (if_pos rfl)

/-! ### Cases -/

/-- an empty database -/
def exEmptyDisk : FS := [([], .dir), (["db"], .dir)]

/-- the files after saving a fair coin -/
def exCoin : FS :=
  (saveEmpirical Decimal.format ["db"] [1/2, 1/2] [.str "head", .str "tail"] "demo" "coin").after exEmptyDisk

example : Dict.get? exCoin ["db", "demo", "generators", "empirical_discrete_gens", "coin.csv"] =
    some (.file "x,px\nhead,1/2\ntail,1/2\n".toList) := by decide +kernel

example : (match loadEmpirical Decimal.format Rng.counter exCoin ["db"] "demo" "coin" 7 with
    | .ok (.choice a p s) => some (a, p, s)
    | _ => none) = some ([.str "head", .str "tail"], some [1/2, 1/2], 7) := by decide +kernel

example : KeptValues Decimal.format [.str "head", .str "tail"] := by
  refine .inr (.inr ⟨?_, ⟨"head", by simp, by decide +kernel⟩, "head", by simp, by decide +kernel⟩)
  intro v hv
  simp only [List.mem_cons, List.not_mem_nil, or_false] at hv
  rcases hv with rfl | rfl
  · exact .inr ⟨"head", rfl, by simp [CleanText], by decide +kernel⟩
  · exact .inr ⟨"tail", rfl, by simp [CleanText], by decide +kernel⟩

example : Creatable exEmptyDisk (["db"] ++ ["demo", "generators", "empirical_discrete_gens"]) := by
  refine ⟨by simp [At, exEmptyDisk], fun q n _ h => ?_⟩
  simp only [At, exEmptyDisk, List.mem_cons, List.not_mem_nil, or_false, Prod.mk.injEq] at h
  rcases h with ⟨-, h⟩ | ⟨-, h⟩ <;> exact h

/-- a total of 1/2 is saved and loaded, but nothing can be drawn from it -/
example : ((saveEmpirical Decimal.format ["db"] [1/4, 1/4] [.str "head", .str "tail"] "demo" "coin").raised?
    exEmptyDisk = none) ∧
    ∀ (R : Rng σ) (s : σ) (n : Nat), 0 < n →
      ¬ ∃ r, (AnyGen.choice [.str "head", .str "tail"] (some [1/4, 1/4]) s).generate R n = .ok r := by
  refine ⟨by decide +kernel, fun R s n hn => ?_⟩
  rw [C98_draws_iff R _ _ rfl s n hn]
  rintro ⟨-, -, h⟩
  norm_num [abs_le] at h

/-- a total of 3/2 is refused -/
example : (saveEmpirical Decimal.format ["db"] [1, 1/2] [.str "head", .str "tail"] "demo" "coin").raised?
    exEmptyDisk = some .assertionError := by decide +kernel

end Db
end Trumania
