import Verif.Spec.Music
import Verif.Props.ShopEarly

/-! Helper lemmas: what one execution of a story of examples/tutorial/example3.py does. -/

namespace Trumania
namespace Music
open Spec World Cdr
open Shop (tabs)
variable {σ : Type} {env : Env σ (AnyGen σ)} {w w' w0 w1 : World σ (AnyGen σ)} {data out : Frame} {ls : List Logs}
  {sc : Scene}

/-- the same populations and the same songs for each genre -/
structure Still (env : Env σ (AnyGen σ)) (m : Nat) (w w' : World σ (AnyGen σ)) : Prop where
  pops : w'.pops = w.pops
  ok : StocksOk env [m] w → StocksOk env [m] w'
  songs : StocksOk env [m] w → ∀ o, (stockAt o w' m).Perm (stockAt o w m)

theorem Still.refl {m : Nat} : Still env m w w := ⟨rfl, id, fun _ _ => .refl _⟩

theorem Still.trans {m : Nat} (h1 : Still env m w w1) (h2 : Still env m w1 w') : Still env m w w' :=
  ⟨h2.pops.trans h1.pops, fun h => h2.ok (h1.ok h), fun h o => (h2.songs (h1.ok h) o).trans (h1.songs h o)⟩

theorem Still.of_eq {m : Nat} (h1 : w'.pops = w.pops) (h2 : w'.rels = w.rels) : Still env m w w' :=
  ⟨h1, fun h i hi => by rw [h2]; exact h i hi, fun _ o => by rw [stockAt, stockAt, h2]⟩

/-- `select_one` without any option keeps all rows -/
theorem select_plain {m : Nat} {f name : String} {l : Logs} (hr : Rect data) (hn : data.index.Nodup)
    (hname : name ∉ data.cols) (hok : StocksOk env [m] w)
    (h : Ops.selectOne env m f name false false false none data w = .ok (out, l) w') :
    l = [] ∧ Grows [name] data out ∧ out.index = data.index ∧ Still env m w w' ∧
    ∀ i ∈ out.index, ∃ t, valueAt out i name = .scalar t ∧ ∀ o,
      ((idIn (valueAt data i f), t) ∈ stockAt o w m ∨ ∀ t, (idIn (valueAt data i f), t) ∉ stockAt o w m) := by
  obtain ⟨r, hr0, hreach⟩ := hok m (by simp)
  obtain ⟨rfl, g, hp, hv, -⟩ := grows_selectOne hr hn hname hr0 hreach env.orders h
  obtain ⟨-, -, r', chosen, e, hreach', hrows, -, -, h3, -⟩ := C92_select_one hn hr0 hreach env.orders h
  have hlt := (List.getElem?_eq_some_iff.1 hr0).1
  refine ⟨rfl, g, ?_, ⟨hp, fun _ i hi => ?_, fun _ o => ?_⟩, fun i hi => ?_⟩
  · rw [Frame.index, Frame.index, hrows, List.map_filterMap]
    rw [← List.filterMap_eq_map]
    refine List.filterMap_congr fun x hx => ?_
    cases hc : chosen x with
    | none => rcases h3 x hx hc with ⟨h5, -⟩ | ⟨h5, -⟩ <;> cases h5
    | some t => rfl
  · obtain rfl := List.mem_singleton.1 hi
    exact ⟨r', by rw [e]; exact List.getElem?_set_self hlt, hreach'⟩
  · obtain ⟨-, -, r2, -, e2, -, -, -, -, -, -, h4, -⟩ := C92_select_one hn hr0 hreach o h
    rw [stockAt_of hr0, stockAt_of (r := r2) (by rw [e2]; exact List.getElem?_set_self hlt)]
    exact (h4 rfl).map _
  · obtain ⟨t, ht, -⟩ := hv i hi
    refine ⟨t, ht, fun o => ?_⟩
    obtain ⟨-, -, -, hv', -⟩ := grows_selectOne hr hn hname hr0 hreach o h
    obtain ⟨t', ht', hc⟩ := hv' i hi
    rw [ht] at ht'
    cases ht'
    rw [stockAt_of hr0]
    refine hc.imp (fun ⟨wt, hm⟩ => List.mem_map.2 ⟨_, hm, rfl⟩) ?_
    rintro ⟨-, hno⟩ t hm
    obtain ⟨x, hx, e⟩ := List.mem_map.1 hm
    exact hno ⟨x.2.1, x.2.2, by rw [← (Prod.mk.inj e).1]; exact hx⟩

/-- what the selection of a genre and of a song adds to the record of each user -/
structure Picked (k n m : Nat) (w : World σ (AnyGen σ)) (f : Frame) (i : Val) (v t : Val) : Prop where
  user : valueAt f i "UID" = .scalar i
  first : ValueOf w k "FIRST_NAME" i (valueAt f i "USER_FIRST_NAME")
  last : ValueOf w k "LAST_NAME" i (valueAt f i "USER_LAST_NAME")
  genre : valueAt f i "GENRE" = .scalar v
  member : MemberOf w n v
  song : valueAt f i "SONG_ID" = .scalar t
  related : ∀ o, (v, t) ∈ stockAt o w m

theorem Picked.kept {k n m : Nat} {f f' : Frame} {new : List String} {i genre song : Val} (h : Picked k n m w f i genre song)
    (hg : Grows new f f') (hi : i ∈ f'.index) (hc : ∀ c ∈ ["UID", "USER_FIRST_NAME", "USER_LAST_NAME", "GENRE", "SONG_ID"], c ∈ f.cols) :
    Picked k n m w f' i genre song := by
  have e : ∀ c ∈ ["UID", "USER_FIRST_NAME", "USER_LAST_NAME", "GENRE", "SONG_ID"], valueAt f' i c = valueAt f i c :=
    fun c hm => hg.kept i hi c (hc c hm)
  obtain ⟨h1, h2, h3, h4, h5, h6, h7⟩ := h
  refine ⟨(e _ (by simp)).trans h1, ?_, ?_, (e _ (by simp)).trans h4, h5, (e _ (by simp)).trans h6, h7⟩
  · rw [e _ (by simp)]; exact h2
  · rw [e _ (by simp)]; exact h3

theorem pick_core {k g n m : Nat} (hsem : env.sem = AnyGen.sem env.R) (hwf : ∀ p ∈ w.pops, Population.WF p)
    (hok : StocksOk env [m] w) (hdraw : DrawsFrom env w g n) (hfull : ∀ o g, MemberOf w n g → ∃ t, (g, t) ∈ stockAt o w m)
    (hcols : data.cols = ["UID"]) (hr : Rect data) (hn : data.index.Nodup)
    (hid : ∀ i ∈ data.index, valueAt data i "UID" = .scalar i)
    (h : Runs [lookupUser k, Ops.randomValues env (.ref g) "GENRE" none, selectSong env m] data w out ls w') :
    ls = [[], [], []] ∧ Rect out ∧ out.index = data.index ∧ out.cols = ["UID", "USER_FIRST_NAME", "USER_LAST_NAME", "GENRE", "SONG_ID"] ∧
    Still env m w w' ∧ ∀ i ∈ out.index, ∃ genre song, Picked k n m w out i genre song := by
  obtain ⟨d1, w1, l1, ls1, h1, hk1, rfl⟩ := Snd.cons_runs h
  obtain ⟨d2, w2, l2, ls2, h2, hk2, rfl⟩ := Snd.cons_runs hk1
  obtain ⟨d3, w3, l3, ls3, h3, hk3, rfl⟩ := Snd.cons_runs hk2
  cases hk3
  obtain ⟨rfl, rfl, g1, i1, q, hq, f1⟩ := grows_lookup_of hwf hr hn (by decide) (by rw [hcols]; decide) h1
  have c1 : d1.cols = ["UID", "USER_FIRST_NAME", "USER_LAST_NAME"] := by rw [g1.cols, hcols]; rfl
  obtain ⟨-, g2, i2⟩ := grows_adder (env := env) (.randomValues _ _) g1.rect g1.nodup (by rw [c1]; decide) h2
  obtain ⟨rfl, values, ad, e⟩ := C91_random_values g1.nodup g1.rect (by rw [c1]; decide) h2
  obtain ⟨q0, p0, r0, hq0, hb⟩ := hdraw
  have hvals := Shop.began_choice hsem hb e
  have hv2 := Shop.listIn_added g1.nodup ad
  have c2 : d2.cols = ["UID", "USER_FIRST_NAME", "USER_LAST_NAME", "GENRE"] := by rw [g2.cols, c1]; rfl
  have s2 : Still env m w1 w2 := .of_eq (columnAdder_pops (env := env) (.randomValues _ _) h2)
    (columnAdder_rels (env := env) (.randomValues _ _) h2)
  obtain ⟨rfl, g3, i3, s3, f3⟩ := select_plain g2.rect g2.nodup (by rw [c2]; decide) (s2.ok hok) h3
  have c3 : out.cols = ["UID", "USER_FIRST_NAME", "USER_LAST_NAME", "GENRE", "SONG_ID"] := by rw [g3.cols, c2]; rfl
  refine ⟨rfl, g3.rect, by rw [i3, i2, i1], c3, s2.trans s3, fun i hi => ?_⟩
  have hi2 := g3.labels i hi
  have hi1 := g2.labels i hi2
  have hi0 := g1.labels i hi1
  obtain ⟨v, hv, hgen⟩ : ∃ v ∈ q0.ids, valueAt d2 i "GENRE" = .scalar v := by
    refine hvals _ ?_
    rw [← hv2]
    exact List.mem_map_of_mem hi2
  have hmem : MemberOf w1 n v := ⟨q0, hq0, hv⟩
  obtain ⟨song, hsong, hrel⟩ := f3 i hi
  have keep : ∀ c ∈ d1.cols, valueAt out i c = valueAt d1 i c := fun c hc =>
    (g3.kept i hi c (by rw [g2.cols]; exact List.mem_append_left _ hc)).trans (g2.kept i hi2 c hc)
  obtain ⟨a1, ha1, hl1⟩ := f1 i hi1 ("FIRST_NAME", "USER_FIRST_NAME") (by decide)
  obtain ⟨a2, ha2, hl2⟩ := f1 i hi1 ("LAST_NAME", "USER_LAST_NAME") (by decide)
  rw [hid i hi0] at hl1 hl2
  refine ⟨v, song, ⟨?_, ?_, ?_, ?_, hmem, hsong, fun o => ?_⟩⟩
  · rw [keep _ (by rw [c1]; decide), g1.kept i hi1 _ (by rw [hcols]; decide)]
    exact hid i hi0
  · rw [keep _ (by rw [c1]; decide)]
    exact ⟨q, a1, hq, ha1, hl1⟩
  · rw [keep _ (by rw [c1]; decide)]
    exact ⟨q, a2, hq, ha2, hl2⟩
  · rw [g3.kept i hi _ (by rw [c2]; decide)]
    exact hgen
  · have h4 := hrel o
    rw [hgen] at h4
    have hp := s2.songs hok o
    obtain ⟨t, ht⟩ := hfull o v hmem
    rcases h4 with h4 | h4
    · exact hp.mem_iff.1 h4
    · exact absurd (hp.mem_iff.2 ht) (h4 t)

/-- the fields of the genre and of the song of each user -/
def picked (sc : Scene) : List String :=
  ["UID", "USER_FIRST_NAME", "USER_LAST_NAME", "GENRE", "SONG_ID"] ++
    (if sc.kind = .detailed then ["SONG_ARTIST", "SONG_TITLE", "SONG_YEAR", "SONG_DURATION"] else [])

/-- the genre and the song of one user, and the attributes of that song -/
def Chosen (sc : Scene) (w : World σ (AnyGen σ)) (f : Frame) (i : Val) : Prop :=
  ∃ v t, Picked sc.users sc.repo sc.rel w f i v t ∧ (sc.kind = .detailed →
    ValueOf w sc.songs "artist_name" t (valueAt f i "SONG_ARTIST") ∧ ValueOf w sc.songs "title" t (valueAt f i "SONG_TITLE") ∧
    ValueOf w sc.songs "recording_year" t (valueAt f i "SONG_YEAR") ∧
    ValueOf w sc.songs "duration_seconds" t (valueAt f i "SONG_DURATION"))

theorem Chosen.kept {f f' : Frame} {new : List String} {i : Val} (h : Chosen sc w f i) (hg : Grows new f f')
    (hi : i ∈ f'.index) (hc : f.cols = picked sc) : Chosen sc w f' i := by
  obtain ⟨v, t, h1, h2⟩ := h
  refine ⟨v, t, h1.kept hg hi fun c hm => by rw [hc]; exact List.mem_append_left _ hm, fun hk => ?_⟩
  have e : ∀ c ∈ ["SONG_ARTIST", "SONG_TITLE", "SONG_YEAR", "SONG_DURATION"], valueAt f' i c = valueAt f i c :=
    fun c hm => hg.kept i hi c (by rw [hc, picked, if_pos hk]; exact List.mem_append_right _ hm)
  rw [e _ (by simp), e _ (by simp), e _ (by simp), e _ (by simp)]
  exact h2 hk

/-- what the choice of a genre and of a song for each user does -/
structure Chose (env : Env σ (AnyGen σ)) (sc : Scene) (w w' : World σ (AnyGen σ)) (data out : Frame) : Prop where
  rect : Rect out
  index : out.index = data.index
  cols : out.cols = picked sc
  still : Still env sc.rel w w'
  each : ∀ i ∈ out.index, Chosen sc w out i

theorem Ready.pick (hsem : env.sem = AnyGen.sem env.R) (hw : Ready env sc w)
    (hcols : data.cols = ["UID"]) (hr : Rect data) (hn : data.index.Nodup)
    (hid : ∀ i ∈ data.index, valueAt data i "UID" = .scalar i)
    (h : Runs [lookupUser sc.users, Ops.randomValues env (.ref sc.genres) "GENRE" none, selectSong env sc.rel] data w out ls w')
    (hk : sc.kind ≠ .detailed) : ls = [[], [], []] ∧ Chose env sc w w' data out := by
  obtain ⟨h1, h2, h3, h4, h5, h6⟩ := pick_core hsem hw.wf hw.stocks hw.genres hw.full hcols hr hn hid h
  refine ⟨h1, h2, h3, by rw [h4, picked, if_neg hk]; rfl, h5, fun i hi => ?_⟩
  obtain ⟨v, t, h7⟩ := h6 i hi
  exact ⟨v, t, h7, fun e => absurd e hk⟩

theorem Ready.song (hsem : env.sem = AnyGen.sem env.R) (hw : Ready env sc w)
    (hcols : data.cols = ["UID"]) (hr : Rect data) (hn : data.index.Nodup)
    (hid : ∀ i ∈ data.index, valueAt data i "UID" = .scalar i) {l : Logs}
    (h : genreAndSong env sc.users sc.rel (.ref sc.genres) data w = .ok (out, l) w')
    (hk : sc.kind ≠ .detailed) : l = [] ∧ Chose env sc w w' data out := by
  obtain ⟨ls, hrun, hl⟩ := nested_ok h
  obtain ⟨rfl, h1⟩ := hw.pick hsem hcols hr hn hid hrun hk
  exact ⟨hl (by simp), h1⟩

theorem Ready.details (hsem : env.sem = AnyGen.sem env.R) (hw : Ready env sc w)
    (hcols : data.cols = ["UID"]) (hr : Rect data) (hn : data.index.Nodup)
    (hid : ∀ i ∈ data.index, valueAt data i "UID" = .scalar i) {l : Logs}
    (h : genreAndDetails env sc.users sc.rel sc.songs (.ref sc.genres) data w = .ok (out, l) w')
    (hk : sc.kind = .detailed) : l = [] ∧ Chose env sc w w' data out := by
  obtain ⟨ls, hrun, hl⟩ := nested_ok h
  obtain ⟨m, u, k1, k2, ha, hb, rfl⟩ := runs_split (a := [_, _, _]) hrun
  obtain ⟨rfl, h2, h3, h4, h5, h6⟩ := pick_core hsem hw.wf hw.stocks hw.genres hw.full hcols hr hn hid ha
  obtain ⟨d1, w1, l1, ls1, hc, hd, rfl⟩ := Snd.cons_runs hb
  cases hd
  obtain ⟨rfl, rfl, g1, i1, q, hq, f1⟩ := grows_lookup_of (by rw [h5.pops]; exact hw.wf) h2 (by rw [h3]; exact hn)
    (by decide) (by rw [h4]; decide) hc
  refine ⟨hl (by simp), g1.rect, i1.trans h3, by rw [g1.cols, h4, picked, if_pos hk]; rfl, h5, fun i hi => ?_⟩
  obtain ⟨v, t, h7⟩ := h6 i (g1.labels i hi)
  refine ⟨v, t, h7.kept g1 hi fun c hm => by rw [h4]; exact hm, fun _ => ?_⟩
  have key : ∀ x ∈ [("artist_name", "SONG_ARTIST"), ("title", "SONG_TITLE"), ("recording_year", "SONG_YEAR"),
      ("duration_seconds", "SONG_DURATION")], ValueOf w sc.songs x.1 t (valueAt out i x.2) := by
    intro x hx
    obtain ⟨a, ha, hv⟩ := f1 i hi x hx
    rw [h7.song] at hv
    exact ⟨q, a, by rw [← h5.pops]; exact hq, ha, hv⟩
  exact ⟨key (_, _) (by simp), key (_, _) (by simp), key (_, _) (by simp), key (_, _) (by simp)⟩

/-! ### One execution -/

/-- a table of the log of story `j`, when `data` acts -/
structure Written (sc : Scene) (w : World σ (AnyGen σ)) (j : Nat) (data t : Frame) : Prop where
  index : t.index = data.index
  cols : t.cols = sc.fieldsOf j
  tells : ∀ r ∈ t.rows, Tells sc w j t r

theorem _root_.Trumania.Music.Tells.of {j : Nat} {t : Frame} {r : Row} (h : Tells sc w j t r) (hp : w'.pops = w.pops)
    (hs : ∀ o x, x ∈ stockAt o w sc.rel → x ∈ stockAt o w' sc.rel) : Tells sc w' j t r := by
  obtain ⟨k1, k2, k3, ⟨v, s, h1, h2, h3, h4, h5⟩, k5⟩ := h
  simp only [ValueOf, MemberOf, ← hp] at k2 k3 h2 h5 k5
  exact ⟨k1, k2, k3, ⟨v, s, h1, h2, h3, fun o => hs o _ (h4 o), h5⟩, k5⟩

theorem Chosen.tells {f : Frame} {j : Nat} (hn : f.index.Nodup) {r : Row} (hr : r ∈ f.rows) (h : Chosen sc w f r.idx)
    (hs : j = 1 → ∃ u, valueAt f r.idx "SHARED_TO_UID" = .scalar u ∧ MemberOf w sc.users u) : Tells sc w j f r := by
  obtain ⟨v, t, h1, h2⟩ := h
  have e : ∀ c, valueAt f r.idx c = cell f r c := valueAt_row hn hr
  obtain ⟨k1, k2, k3, k4, k5, k6, k7⟩ := h1
  simp only [e] at k1 k2 k3 k4 k6 h2 hs
  exact ⟨k1, k2, k3, ⟨v, t, k4, k5, k6, k7, h2⟩, hs⟩

theorem listen_builtIn {F : Nat → Prop} {u g m : Nat} :
    ∀ op ∈ [lookupUser u, Ops.randomValues env (.ref g) "GENRE" none, selectSong env m], BuiltIn env F F op := by
  intro op hop
  simp only [List.mem_cons, List.not_mem_nil, or_false] at hop
  rcases hop with rfl | rfl | rfl
  · exact .lookup _ _ _
  · exact .adder (.randomValues _ _)
  · exact .selectOne _ _ _ _ _ _ _

theorem song_builtIn {F : Nat → Prop} {u g m : Nat} : BuiltIn env F F (genreAndSong env u m (.ref g)) :=
  .chain _ listen_builtIn

theorem details_builtIn {F : Nat → Prop} {u g m n : Nat} : BuiltIn env F F (genreAndDetails env u m n (.ref g)) := by
  refine .chain _ fun op hop => ?_
  simp only [List.mem_cons, List.not_mem_nil, or_false] at hop
  rcases hop with rfl | rfl | rfl | rfl
  · exact .lookup _ _ _
  · exact .adder (.randomValues _ _)
  · exact .selectOne _ _ _ _ _ _ _
  · exact .lookup _ _ _

theorem music_builtIn {F : Nat → Prop} {j : Nat} {ops : List (Op (World σ (AnyGen σ)))}
    (hi : (sc.chains env)[j]? = some ops) : ∀ op ∈ ops, BuiltIn env F F op := by
  have h2 : ∀ own select, BuiltIn env F F select → ∀ op ∈ listenedOps env own select, BuiltIn env F F op := by
    intro own select hs op hop
    simp only [listenedOps, Ops.setOperations, List.cons_append, List.nil_append, List.mem_cons, List.not_mem_nil,
      or_false] at hop
    rcases hop with rfl | rfl | rfl
    · exact hs
    · exact .fieldLogger _ _ _
    · exact .effect (.maybeBackToDefault _)
  have h3 : ∀ own select c, BuiltIn env F F select → ∀ op ∈ sharedOps env own select c, BuiltIn env F F op := by
    intro own select c hs op hop
    simp only [sharedOps, Ops.setOperations, List.cons_append, List.nil_append, List.mem_cons, List.not_mem_nil,
      or_false] at hop
    rcases hop with rfl | rfl | rfl | rfl
    · exact hs
    · exact .adder (.randomValues _ _)
    · exact .fieldLogger _ _ _
    · exact .effect (.maybeBackToDefault _)
  rw [Scene.chains] at hi
  cases hk : sc.kind with
  | alone =>
    rw [hk] at hi
    match j with
    | 0 =>
      cases hi
      intro op hop
      simp only [listenOps, Ops.setOperations, List.cons_append, List.nil_append, List.mem_cons, List.not_mem_nil,
        or_false] at hop
      rcases hop with rfl | rfl | rfl | rfl | rfl
      · exact .lookup _ _ _
      · exact .adder (.randomValues _ _)
      · exact .selectOne _ _ _ _ _ _ _
      · exact .fieldLogger _ _ _
      · exact .effect (.maybeBackToDefault _)
    | j + 1 => cases hi
  | both =>
    rw [hk] at hi
    match j with
    | 0 => cases hi; exact h2 _ _ song_builtIn
    | 1 => cases hi; exact h3 _ _ _ song_builtIn
    | j + 2 => cases hi
  | detailed =>
    rw [hk] at hi
    match j with
    | 0 => cases hi; exact h2 _ _ details_builtIn
    | 1 => cases hi; exact h3 _ _ _ details_builtIn
    | j + 2 => cases hi

/-- the end of a listening story -/
theorem logged {logId : String} {own : Nat} (hn : data.index.Nodup) (hch : Chose env sc w w1 data out) {m : Frame}
    (h : Runs [Ops.fieldLogger logId [] [], Ops.maybeBackToDefault env own] out w1 m ls w') :
    ∃ t, ls = [[(logId, t)], []] ∧ Still env sc.rel w w' ∧ t.index = data.index ∧ t.cols = picked sc ∧
      ∀ r ∈ t.rows, Tells sc w 0 t r := by
  obtain ⟨d1, w2, l1, ls1, h1, hk1, rfl⟩ := Snd.cons_runs h
  obtain ⟨d2, w3, l2, ls2, h2, hk2, rfl⟩ := Snd.cons_runs hk1
  cases hk2
  obtain ⟨rfl, rfl, rfl⟩ := Shop.logged_all h1
  obtain ⟨rfl, rfl, r1, p1⟩ := Shop.back_kept h2
  refine ⟨_, rfl, hch.still.trans (.of_eq p1 r1), hch.index, hch.cols, fun r hr => ?_⟩
  exact (hch.each _ (mem_index.2 ⟨r, hr, rfl⟩)).tells (hch.index ▸ hn) hr fun e => absurd e (by decide)

/-- the end of a sharing story -/
theorem shared (hsem : env.sem = AnyGen.sem env.R) {own c : Nat} (hn : data.index.Nodup) (hch : Chose env sc w w1 data out)
    (hdraw : DrawsFrom env w1 c sc.users) {m : Frame}
    (h : Runs [Ops.randomValues env (.ref c) "SHARED_TO_UID" none, Ops.fieldLogger "share_events" [] [],
      Ops.maybeBackToDefault env own] out w1 m ls w') :
    ∃ t, ls = [[], [("share_events", t)], []] ∧ Still env sc.rel w w' ∧ t.index = data.index ∧
      t.cols = picked sc ++ ["SHARED_TO_UID"] ∧ ∀ r ∈ t.rows, Tells sc w 1 t r := by
  obtain ⟨d0, w0, l0, ls0, h0, hk0, rfl⟩ := Snd.cons_runs h
  obtain ⟨d1, w2, l1, ls1, h1, hk1, rfl⟩ := Snd.cons_runs hk0
  obtain ⟨d2, w3, l2, ls2, h2, hk2, rfl⟩ := Snd.cons_runs hk1
  cases hk2
  have hn1 : out.index.Nodup := hch.index ▸ hn
  have hnew : "SHARED_TO_UID" ∉ out.cols := by
    rw [hch.cols, picked]
    split <;> decide
  obtain ⟨-, g2, i2⟩ := grows_adder (env := env) (.randomValues _ _) hch.rect hn1 hnew h0
  obtain ⟨rfl, values, ad, e⟩ := C91_random_values hn1 hch.rect hnew h0
  obtain ⟨q0, p0, r0, hq0, hb⟩ := hdraw
  have hvals := Shop.began_choice hsem hb e
  have hv2 := Shop.listIn_added hn1 ad
  have s2 : Still env sc.rel w1 w0 := .of_eq (columnAdder_pops (env := env) (.randomValues _ _) h0)
    (columnAdder_rels (env := env) (.randomValues _ _) h0)
  obtain ⟨rfl, rfl, rfl⟩ := Shop.logged_all h1
  obtain ⟨rfl, rfl, r1, p1⟩ := Shop.back_kept h2
  refine ⟨_, rfl, (hch.still.trans s2).trans (.of_eq p1 r1), i2.trans hch.index, by rw [g2.cols, hch.cols],
    fun r hr => ?_⟩
  have hi := mem_index.2 ⟨r, hr, rfl⟩
  refine ((hch.each _ (g2.labels _ hi)).kept g2 hi hch.cols).tells g2.nodup hr fun _ => ?_
  obtain ⟨v, hv, hgen⟩ := hvals _ (by rw [← hv2]; exact List.mem_map_of_mem hi)
  exact ⟨v, hgen, q0, by rw [← hch.still.pops]; exact hq0, hv⟩

/-- what an execution of story `j` does and logs -/
structure Did (env : Env σ (AnyGen σ)) (sc : Scene) (j : Nat) (s : Story σ) (w w' : World σ (AnyGen σ)) (logs : Logs) :
    Prop where
  still : Still env sc.rel w w'
  other : ∀ id, id ≠ sc.logOf j → tablesOf id logs = []
  acting : actingRows s = [] ∧ logs = [] ∨ ∃ t, tablesOf (sc.logOf j) logs = [t] ∧
    t.index = (actingRows s).map (·.idx) ∧ t.cols = sc.fieldsOf j ∧ ∀ r ∈ t.rows, Tells sc w j t r

theorem Ready.same (hw : Ready env sc w) (hsame : SameStories w w') (hp : w'.pops = w.pops) (hok : StocksOk env [sc.rel] w')
    (hs : ∀ o, (stockAt o w' sc.rel).Perm (stockAt o w sc.rel))
    (hb : ∀ {r : GenRef} {g : AnyGen σ}, Began env w r g → Began env w' r g) : Ready env sc w' := by
  have draws : ∀ {g k : Nat}, DrawsFrom env w g k → DrawsFrom env w' g k := fun ⟨q, p, r, h1, h2⟩ =>
    ⟨q, p, r, by rw [hp]; exact h1, hb h2⟩
  refine ⟨by rw [hp]; exact hw.wf, SameStories.nodup hsame hw.ids, fun s hm => ?_, hok, draws hw.genres,
    fun hk => draws (hw.choice hk), fun o g hg => ?_⟩
  · have hm : s.idField ∈ w.stories.map (·.idField) := SameStories.fields hsame ▸ List.mem_map_of_mem hm
    obtain ⟨s', hs', e⟩ := List.mem_map.1 hm
    rw [← e]
    exact hw.fields s' hs'
  · obtain ⟨t, ht⟩ := hw.full o g (by rw [MemberOf, ← hp]; exact hg)
    exact ⟨t, (hs o).mem_iff.2 ht⟩

theorem logs_of (hk : sc.kind ≠ .alone) : sc.logOf 0 = "listen_events" ∧ sc.logOf 1 = "share_events" := by
  obtain ⟨k, _, _, _, _, _, _⟩ := sc
  cases k
  · exact absurd rfl hk
  · exact ⟨rfl, rfl⟩
  · exact ⟨rfl, rfl⟩

theorem did (hsem : env.sem = AnyGen.sem env.R) (hw : Ready env sc w) {j : Nat} {ops : List (Op (World σ (AnyGen σ)))}
    {logs : Logs} (hi : (sc.chains env)[j]? = some ops) (h : World.execute env ops j w = .ok logs w') :
    ∃ s, w.stories[j]? = some s ∧ Did env sc j s w w' logs := by
  obtain ⟨s, w1, s1, s', hs, ha, -, -, hrest, -⟩ := execute_ok h
  refine ⟨s, hs, ?_⟩
  have hlast : Still env sc.rel w1 w' := .of_eq hrest.pops hrest.rels
  have hstart : Still env sc.rel w (started w j s) := .of_eq rfl rfl
  obtain ⟨s3, hs3, hafter⟩ := ha
  rw [hs] at hs3
  cases hs3
  rcases hafter with ⟨hno, rfl, rfl⟩ | ⟨-, last, h5⟩
  · exact ⟨hstart.trans hlast, by simp [tablesOf], .inl ⟨hno, rfl⟩⟩
  obtain ⟨hwf, ls, hr, hl⟩ := (chain_sequential env.logSet _ _ last _ w1).1 logs h5
  have hf := hw.fields s (List.mem_of_getElem? hs)
  obtain ⟨n1, n2, n3⟩ := acting_names (hw.ids s (List.mem_of_getElem? hs)) hf
  have hw1 : Ready env sc (started w j s) := by
    obtain ⟨s4, w4, hs4, hsame, -⟩ := execute_gen_at (i := 0) h
    rw [hs] at hs4
    cases hs4
    exact hw.same hsame rfl hw.stocks (fun _ => .refl _) fun h => h
  have key : ∀ {t : Frame}, tabs ls (sc.logOf j) = [t] → (∀ id, id ≠ sc.logOf j → tabs ls id = []) →
      Still env sc.rel (started w j s) w1 → t.index = (Frame.mk [s.idField] (actingRows s)).index → t.cols = sc.fieldsOf j →
      (∀ r ∈ t.rows, Tells sc (started w j s) j t r) → Did env sc j s w w' logs := by
    intro t t1 t2 t3 t4 t5 t6
    have hT : ∀ id, tablesOf id logs = tabs ls id :=
      tables_of_one (fun id => by rw [tablesOf_dict hwf, hl]) t1 t2
    exact ⟨(hstart.trans t3).trans hlast, fun id hid => by rw [hT]; exact t2 id hid,
      .inr ⟨t, by rw [hT]; exact t1, t4, t5, fun r hr' => (t6 r hr').of rfl fun _ _ h => h⟩⟩
  have listen : ∀ own (select : Op (World σ (AnyGen σ))), sc.kind ≠ .alone → j = 0 →
      (∀ {l : Logs} {m : Frame} {u : World σ (AnyGen σ)}, select ⟨[s.idField], actingRows s⟩ (started w j s) = .ok (m, l) u →
        l = [] ∧ Chose env sc (started w j s) u ⟨[s.idField], actingRows s⟩ m) →
      Runs (listenedOps env own select) ⟨[s.idField], actingRows s⟩ (started w j s) last ls w1 →
      Did env sc j s w w' logs := by
    intro own select hk hj hsel hrun
    rw [listenedOps, Ops.setOperations] at hrun
    obtain ⟨d1, u1, l1, ls1, h1, hk1, rfl⟩ := Snd.cons_runs hrun
    obtain ⟨rfl, hch⟩ := hsel h1
    obtain ⟨t, rfl, t1, t2, t3, t4⟩ := logged n2 hch hk1
    have hlog : sc.logOf j = "listen_events" := hj ▸ (logs_of hk).1
    refine key (t := t) ?_ (fun id hid => ?_) t1 t2 ?_ (fun r hr' => hj ▸ t4 r hr')
    · simp [List.filterMap_cons, Dict.get?, hlog]
    · rw [hlog] at hid
      simp [List.filterMap_cons, Dict.get?, Ne.symm hid]
    · rw [t3, Scene.fieldsOf, picked, hj]
      simp
  have share : ∀ own (select : Op (World σ (AnyGen σ))), sc.kind ≠ .alone → j = 1 →
      (∀ {l : Logs} {m : Frame} {u : World σ (AnyGen σ)}, select ⟨[s.idField], actingRows s⟩ (started w j s) = .ok (m, l) u →
        l = [] ∧ Chose env sc (started w j s) u ⟨[s.idField], actingRows s⟩ m) →
      BuiltIn env (fun _ => True) (fun _ => True) select →
      Runs (sharedOps env own select (.ref sc.choice)) ⟨[s.idField], actingRows s⟩ (started w j s) last ls w1 →
      Did env sc j s w w' logs := by
    intro own select hk hj hsel hbi hrun
    rw [sharedOps, Ops.setOperations] at hrun
    obtain ⟨d1, u1, l1, ls1, h1, hk1, rfl⟩ := Snd.cons_runs hrun
    obtain ⟨rfl, hch⟩ := hsel h1
    have hdraw : DrawsFrom env u1 sc.choice sc.users := by
      obtain ⟨q, p, r, e1, e2⟩ := hw1.choice hk
      exact ⟨q, p, r, by rw [hch.still.pops]; exact e1, began_op hbi h1 e2⟩
    obtain ⟨t, rfl, t1, t2, t3, t4⟩ := shared hsem n2 hch hdraw hk1
    have hlog : sc.logOf j = "share_events" := hj ▸ (logs_of hk).2
    refine key (t := t) ?_ (fun id hid => ?_) t1 t2 ?_ (fun r hr' => hj ▸ t4 r hr')
    · simp [List.filterMap_cons, Dict.get?, hlog]
    · rw [hlog] at hid
      simp [List.filterMap_cons, Dict.get?, Ne.symm hid]
    · rw [t3, Scene.fieldsOf, picked, hj]
      simp
  have hcols : (Frame.mk [s.idField] (actingRows s)).cols = ["UID"] := by rw [← hf]
  rw [Scene.chains] at hi
  cases hk : sc.kind with
  | alone =>
    rw [hk] at hi
    match j with
    | 0 =>
      cases hi
      rw [listenOps, Ops.setOperations] at hr
      obtain ⟨m1, u1, k1, kb, ha, hb, rfl⟩ := runs_split (a := [_, _, _]) hr
      obtain ⟨rfl, hch⟩ := hw1.pick hsem hcols n1 n2 n3 ha (by rw [hk]; decide)
      obtain ⟨t, rfl, t1, t2, t3, t4⟩ := logged n2 hch hb
      have hlog : sc.logOf 0 = "events" := by simp [Scene.logOf, hk]
      refine key (t := t) ?_ (fun id hid => ?_) t1 t2 ?_ t4
      · simp [List.filterMap_cons, Dict.get?, hlog]
      · rw [hlog] at hid
        simp [List.filterMap_cons, Dict.get?, Ne.symm hid]
      · rw [t3, Scene.fieldsOf, picked]
        simp
    | j + 1 => cases hi
  | both =>
    rw [hk] at hi
    have hk1 : sc.kind ≠ .alone := by rw [hk]; decide
    have hk2 : sc.kind ≠ .detailed := by rw [hk]; decide
    match j with
    | 0 => cases hi; exact listen _ _ hk1 rfl (fun h => hw1.song hsem hcols n1 n2 n3 h hk2) hr
    | 1 => cases hi; exact share _ _ hk1 rfl (fun h => hw1.song hsem hcols n1 n2 n3 h hk2) song_builtIn hr
    | j + 2 => cases hi
  | detailed =>
    rw [hk] at hi
    have hk1 : sc.kind ≠ .alone := by rw [hk]; decide
    match j with
    | 0 => cases hi; exact listen _ _ hk1 rfl (fun h => hw1.details hsem hcols n1 n2 n3 h hk) hr
    | 1 => cases hi; exact share _ _ hk1 rfl (fun h => hw1.details hsem hcols n1 n2 n3 h hk) details_builtIn hr
    | j + 2 => cases hi

theorem exec_ready (hsem : env.sem = AnyGen.sem env.R) (hw : Ready env sc w) {j : Nat}
    {ops : List (Op (World σ (AnyGen σ)))} {logs : Logs} (hi : (sc.chains env)[j]? = some ops)
    (h : World.execute env ops j w = .ok logs w') : Ready env sc w' := by
  have hb := music_builtIn hi (F := fun _ => True)
  obtain ⟨s, hs, hd⟩ := did hsem hw hi h
  refine hw.same (execute_sameStories hb h) hd.still.pops (hd.still.ok hw.stocks) (hd.still.songs hw.stocks)
    fun hg => ?_
  obtain ⟨j, hj, hb'⟩ := began_iff.1 hg
  exact began_iff.2 ⟨j, hj, execute_gens (beganAt_inv j).toGenKept
    (fun op hop => builtIn_respects (beganAt_inv j).toGenKept (hb op hop)) h hb'⟩

theorem tick_ready (hw : Ready env sc w) : Ready env sc (nextStep env w) := by
  refine hw.same (.refl _) rfl hw.stocks (fun _ => .refl _) fun hg => ?_
  obtain ⟨j, hj, hb⟩ := began_iff.1 hg
  exact began_iff.2 ⟨j, hj, (beganAt_inv j).tick _ hb⟩

end Music
end Trumania
