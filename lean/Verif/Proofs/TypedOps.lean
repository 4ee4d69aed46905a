import Verif.Proofs.TypedCols
import Verif.Proofs.Labels

/-! Helper lemmas: the other operations never raise on well-formed story data. -/

namespace Trumania
open Spec World
variable {σ γ : Type} {env : Env σ γ} {S : Sig γ} {M : Val → Prop} {Γ : Ctx}
variable {data : Frame} {w : World σ γ}

theorem side_safe (hd : Typed M Γ data) {effect : Frame → Act (World σ γ) Unit}
    (he : ∃ w', effect data w = .ok () w' ∧ Fits env S w') :
    SafeRun env S M Γ (Ops.sideEffect effect) data w := by
  obtain ⟨w', h1, h2⟩ := he
  exact ⟨data, [], w', sideEffect_eq_ok.2 ⟨h1, rfl⟩, hd, h2⟩

/-! ### Relationships -/

theorem onRel_safe (hd : Typed M Γ data) (hw : Fits env S w) {rel : Nat} {K : RelKind}
    (hrel : S.rels[rel]? = some K) {f : Relationship σ → Frame → Py (Relationship σ)}
    (hf : ∀ r, RelFits env K r → ∃ r', f r data = .ok r' ∧ RelFits env K r') :
    SafeRun env S M Γ (Ops.onRel rel f) data w := by
  refine side_safe hd ?_
  split
  · exact ⟨w, rfl, hw⟩
  · obtain ⟨r, h1, h2⟩ := hw.rel hrel
    obtain ⟨r', h3, h4⟩ := hf r h2
    refine ⟨_, ?_, hw.setRel hrel h4⟩
    rw [Act.bind_ok (getRel_eq_ok.2 ⟨h1, rfl⟩), Act.bind_ok (Act.ofPy_ok h3 w)]
    rfl

theorem relAdd_safe (hd : Typed M Γ data) (hw : Fits env S w) {rel : Nat} {f i : String}
    {K : RelKind} (hrel : S.rels[rel]? = some K) (hf : Γ.Has M f fun _ => IsId)
    (hi : Γ.Has M i fun _ => IdIn K.items) : SafeRun env S M Γ (Ops.relAdd env rel f i) data w := by
  refine onRel_safe hd hw hrel fun r hr => ?_
  obtain ⟨froms, h1, h2⟩ := hd.ids' hf
  obtain ⟨items, h3, h4, h5⟩ := hd.ids hi
  obtain ⟨r', h6, h7⟩ := hr.add (froms := froms) (tos := items) (by omega) h5
  exact ⟨r', bind_eq_ok.2 ⟨_, h1, bind_eq_ok.2 ⟨_, h3, h6⟩⟩, h7⟩

theorem asLists {cells : List Cell} {P : Val → Prop} (h : ∀ c ∈ cells, ListOf P c) :
    ∃ ls : List (List Val), cells.mapM Cell.asList = .ok ls ∧ cells = ls.map Cell.list ∧
      ∀ l ∈ ls, ∀ v ∈ l, P v := by
  induction cells with
  | nil => exact ⟨[], rfl, rfl, by simp⟩
  | cons c cells ih =>
    obtain ⟨v, rfl, hv⟩ := h c (by simp)
    obtain ⟨vs, h1, rfl, h3⟩ := ih fun c hc => h c (by simp [hc])
    refine ⟨v :: vs, by rw [List.mapM_cons, h1]; rfl, rfl, ?_⟩
    intro l hl
    rcases List.mem_cons.1 hl with rfl | hl
    · exact hv
    · exact h3 l hl

theorem relAddGrouped_safe (hd : Typed M Γ data) (hw : Fits env S w) {rel : Nat} {f i : String}
    {K : RelKind} (hrel : S.rels[rel]? = some K) (hf : Γ.Has M f fun _ => IsId)
    (hi : Γ.Has M i fun _ => ListOf K.items) :
    SafeRun env S M Γ (Ops.relAddGrouped env rel f i) data w := by
  refine onRel_safe hd hw hrel fun r hr => ?_
  obtain ⟨froms, h1, -⟩ := hd.ids' hf
  obtain ⟨cs, h3, -, h5⟩ := hd.col' hi
  obtain ⟨ls, h6, -, h7⟩ := asLists h5
  obtain ⟨r', h8, h9⟩ := hr.addGrouped (froms := froms) (tos := ls) h7
  exact ⟨r', bind_eq_ok.2 ⟨_, h3, bind_eq_ok.2 ⟨_, h6, bind_eq_ok.2 ⟨_, h1, h8⟩⟩⟩, h9⟩

theorem selectOne_safe (hd : Typed M Γ data) (hw : Fits env S w) {rel : Nat} {f name : String}
    {o p d : Bool} {weight : Option (Dict Val Rat)} {K : RelKind} (hrel : S.rels[rel]? = some K)
    (hp : p = true → K.Takes) (hf : Γ.Has M f fun _ => IsId)
    (hwt : ∀ D, weight = some D → ∀ v, K.items v → ∃ x, D.get? v = some x ∧ 0 < x)
    (hn : name ∉ Γ.names) :
    SafeRun env S M (Γ ++ [(name, fun _ => if d then IdIn K.items else IdOrNa K.items)])
      (Ops.selectOne env rel f name o p d weight) data w := by
  obtain ⟨froms, h1, h2⟩ := hd.ids' hf
  obtain ⟨r, h3, h4⟩ := hw.rel hrel
  obtain ⟨rows, r', h5, h6, h7⟩ := h4.selectOne hwt (data.index.zip froms) p d o hp
  have hz : (data.index.zip froms).map Prod.fst = data.index :=
    List.map_fst_zip (by rw [Frame.index_length]; omega)
  obtain ⟨hl1, -⟩ := select_one_labels h5 (by rw [hz]; exact hd.index)
  refine ⟨_, [], _, addColumns_eq_ok.2
    ⟨⟨[name], rows.map fun x => ⟨x.label, [.scalar (x.to_.getD .na)]⟩⟩, ?_, rfl⟩,
    hd.merge (M' := fun _ => True) (Δ := [(name, fun _ => if d then IdIn K.items else IdOrNa K.items)])
      ⟨rfl, by simp [Ctx.names], ?_, fun _ _ => trivial, ?_⟩ ?_ (by simp), hw.setRel hrel h6⟩
  · rw [Act.bind_ok (Act.ofPy_ok h1 w), Act.bind_ok (getRel_eq_ok.2 ⟨h3, rfl⟩),
      Act.bind_ok (Act.ofPy_ok h5 w)]
    rfl
  · rw [Frame.index, List.map_map]
    exact hl1
  · intro x hx
    obtain ⟨row, hrow, rfl⟩ := List.mem_map.1 hx
    refine .cons ?_ .nil
    simp only
    rcases h7 row hrow with ⟨e, rfl, -⟩ | ⟨t, e, ht⟩
    · rw [e]; exact Or.inl rfl
    · rw [e]
      have : IdIn K.items (.scalar t) := ⟨t, rfl, ht⟩
      cases d with
      | true => exact this
      | false => exact Or.inr this
  · rw [List.nodup_append]
    refine ⟨hd.distinct, by simp [Ctx.names], ?_⟩
    rintro a ha b hb rfl
    simp only [Ctx.names, List.map_cons, List.map_nil, List.mem_singleton] at hb
    subst hb
    exact hn ha

theorem selectOneOwned_safe (hd : Typed M Γ data) (hw : Fits env S w) {rel : Nat} {f name : String}
    {o p d : Bool} {weight : Option (Dict Val Rat)} {K : RelKind} (hrel : S.rels[rel]? = some K)
    (hp : p = true → K.Takes) (hf : Γ.Has M f fun _ => IdIn K.owners)
    (hwt : ∀ D, weight = some D → ∀ v, K.items v → ∃ x, D.get? v = some x ∧ 0 < x)
    (hn : name ∉ Γ.names) :
    SafeRun env S M (Γ ++ [(name, fun _ => IdIn K.items)])
      (Ops.selectOne env rel f name o p d weight) data w := by
  obtain ⟨froms, h1, h2, h8⟩ := hd.ids hf
  obtain ⟨r, h3, h4⟩ := hw.rel hrel
  obtain ⟨rows, r', h5, h6, h7⟩ := h4.selectOne hwt (data.index.zip froms) p d o hp
  have hz : (data.index.zip froms).map Prod.fst = data.index :=
    List.map_fst_zip (by rw [Frame.index_length]; omega)
  obtain ⟨hl1, -⟩ := select_one_labels h5 (by rw [hz]; exact hd.index)
  refine ⟨_, [], _, addColumns_eq_ok.2
    ⟨⟨[name], rows.map fun x => ⟨x.label, [.scalar (x.to_.getD .na)]⟩⟩, ?_, rfl⟩,
    hd.merge (M' := fun _ => True) (Δ := [(name, fun _ => IdIn K.items)])
      ⟨rfl, by simp [Ctx.names], ?_, fun _ _ => trivial, ?_⟩ ?_ (by simp), hw.setRel hrel h6⟩
  · rw [Act.bind_ok (Act.ofPy_ok h1 w), Act.bind_ok (getRel_eq_ok.2 ⟨h3, rfl⟩),
      Act.bind_ok (Act.ofPy_ok h5 w)]
    rfl
  · rw [Frame.index, List.map_map]
    exact hl1
  · intro x hx
    obtain ⟨row, hrow, rfl⟩ := List.mem_map.1 hx
    refine .cons ?_ .nil
    simp only
    rcases h7 row hrow with ⟨-, -, q, hq, hno⟩ | ⟨t, e, ht⟩
    · exact absurd (h8 _ (List.of_mem_zip hq).2) hno
    · rw [e]
      exact ⟨t, rfl, ht⟩
  · rw [List.nodup_append]
    refine ⟨hd.distinct, by simp [Ctx.names], ?_⟩
    rintro a ha b hb rfl
    simp only [Ctx.names, List.map_cons, List.map_nil, List.mem_singleton] at hb
    subst hb
    exact hn ha

theorem asInts {cells : List Cell} (h : ∀ c ∈ cells, IsWhole c) :
    ∃ ns : List Int, cells.mapM Ops.asInt = .ok ns ∧ ns.length = cells.length ∧ ∀ n ∈ ns, 0 ≤ n := by
  induction cells with
  | nil => exact ⟨[], rfl, rfl, by simp⟩
  | cons c cells ih =>
    obtain ⟨n, rfl⟩ := h c (by simp)
    obtain ⟨ns, h1, h2, h3⟩ := ih fun c hc => h c (by simp [hc])
    have e : Ops.asInt (.scalar (.num (n : Rat))) = .ok (n : Int) := by
      rw [Ops.asInt, if_pos (Rat.den_natCast _), Rat.num_natCast]
    refine ⟨(n : Int) :: ns, by rw [List.mapM_cons, e, h1]; rfl, by simp [h2], ?_⟩
    intro x hx
    rcases List.mem_cons.1 hx with rfl | hx
    · exact Int.natCast_nonneg n
    · exact h3 x hx

theorem selectMany_safe (hd : Typed M Γ data) (hw : Fits env S w) {rel : Nat} {f name q : String}
    {p d : Bool} {K : RelKind} (hrel : S.rels[rel]? = some K) (hp : p = true → K.Takes)
    (hf : Γ.Has M f fun _ => IsId) (hq : Γ.Has M q fun _ => IsWhole) (hn : name ∉ Γ.names) :
    SafeRun env S M (Γ ++ [(name, fun _ => ListOf K.items)]) (Ops.selectMany env rel f name q p d) data w := by
  obtain ⟨froms, h1, h2⟩ := hd.ids' hf
  obtain ⟨cs, g1, g2, g3⟩ := hd.col' hq
  obtain ⟨ns, g4, g5, g6⟩ := asInts g3
  obtain ⟨r, h3, h4⟩ := hw.rel hrel
  have hz : (data.index.zip (froms.zip ns)).map (·.1) = data.index :=
    List.map_fst_zip (by rw [Frame.index_length, List.length_zip]; omega)
  obtain ⟨rows, r', h5, h6, h7⟩ := h4.selectMany (reqs := data.index.zip (froms.zip ns))
    (by rw [hz]; exact hd.index)
    (fun x hx => g6 _ (List.of_mem_zip (List.of_mem_zip hx).2).2) p d hp
  obtain ⟨hl1, -⟩ := select_many_labels h5 (by rw [hz]; exact hd.index)
  refine ⟨_, [], _, addColumns_eq_ok.2
    ⟨⟨[name], rows.map fun x => ⟨x.1, [.list x.2]⟩⟩, ?_, rfl⟩,
    hd.merge (M' := fun _ => True) (Δ := [(name, fun _ => ListOf K.items)])
      ⟨rfl, by simp [Ctx.names], ?_, fun _ _ => trivial, ?_⟩ ?_ (by simp), hw.setRel hrel h6⟩
  · rw [Act.bind_ok (Act.ofPy_ok h1 w), Act.bind_ok (Act.ofPy_ok (bind_eq_ok.2 ⟨cs, g1, g4⟩) w),
      Act.bind_ok (getRel_eq_ok.2 ⟨h3, rfl⟩), Act.bind_ok (Act.ofPy_ok h5 w)]
    rfl
  · rw [Frame.index, List.map_map]
    exact hl1
  · intro x hx
    obtain ⟨row, hrow, rfl⟩ := List.mem_map.1 hx
    exact .cons ⟨row.2, rfl, h7 row hrow⟩ .nil
  · rw [List.nodup_append]
    refine ⟨hd.distinct, by simp [Ctx.names], ?_⟩
    rintro a ha b hb rfl
    simp only [Ctx.names, List.map_cons, List.map_nil, List.mem_singleton] at hb
    subst hb
    exact hn ha

theorem selectAll_safe (hd : Typed M Γ data) (hw : Fits env S w) {rel : Nat} {f name : String}
    {K : RelKind} (hrel : S.rels[rel]? = some K) (hf : Γ.Has M f fun _ => IsId)
    (hn : name ∉ Γ.names) :
    SafeRun env S M (Γ ++ [(name, fun _ => ListOf K.items)]) (Ops.selectAll env rel f name) data w := by
  obtain ⟨froms, h1, h2⟩ := hd.ids' hf
  obtain ⟨r, h3, h4⟩ := hw.rel hrel
  have h7 := h4.selectAll (uniq froms)
  generalize hsel : r.select_all_horizontal env.orders (uniq froms) = selected at h7
  refine ⟨Ops.mergeLists data froms name selected, [], w, ?_, ?_, hw⟩
  · rw [Ops.selectAll, Act.bind_ok (Act.ofPy_ok h1 w), Act.bind_ok (getRel_eq_ok.2 ⟨h3, rfl⟩), hsel]
    rfl
  have hnames : Ctx.names (Γ ++ [(name, fun _ => ListOf K.items)]) = Γ.names ++ [name] := by
    simp [Ctx.names]
  have hnd : (Γ.names ++ [name]).Nodup := by
    rw [List.nodup_append]
    refine ⟨hd.distinct, by simp, ?_⟩
    rintro a ha b hb rfl
    rw [List.mem_singleton] at hb
    subst hb
    exact hn ha
  have hidx := zip_filter_idx h2 hd.index selected (uniq_nodup froms)
  refine ⟨?_, by rw [hnames]; exact hnd, hidx.1, fun i hi => hd.labels i (hidx.2 i hi), ?_⟩
  · rw [hnames]
    show Frame.mergedCols data.cols [name] = _
    rw [Frame.mergedCols_disjoint, hd.cols]
    intro c hc hc'
    rw [List.mem_singleton] at hc'
    subst hc'
    rw [hd.cols] at hc
    exact hn hc
  · intro x hx
    obtain ⟨f', -, hx⟩ := List.mem_flatMap.1 hx
    cases hg : Dict.get? selected f' with
    | none => rw [hg] at hx; simp at hx
    | some tos =>
      rw [hg] at hx
      obtain ⟨y, hy, rfl⟩ := List.mem_map.1 hx
      exact List.rel_append (hd.cells y.1 (List.of_mem_zip (List.mem_of_mem_filter hy)).1)
        (.cons ⟨tos, rfl, h7 _ (Dict.get?_mem hg)⟩ .nil)

/-! ### Populations -/

theorem onAttribute_safe (hw : Fits env S w) {pop : Nat} {name : String} {P : Dict String AttKind}
    {k : AttKind} (hpop : S.pops[pop]? = some P) (hk : P.get? name = some k)
    {f : Attribute → Py Attribute} (hf : ∀ a, AttFits k a → ∃ a', f a = .ok a' ∧ AttFits k a') :
    ∃ w', Ops.onAttribute pop name f w = .ok () w' ∧ Fits env S w' := by
  obtain ⟨p, h1, h2⟩ := hw.pop hpop
  obtain ⟨a, h3, h4⟩ := h2.getAtt hk
  obtain ⟨a', h5, h6⟩ := hf a h4
  exact ⟨_, onAttribute_eq_ok.2 ⟨p, a, a', h1, h3, h5, rfl⟩, hw.setPop hpop (h2.setAttribute hk h6)⟩

theorem attrUpdate_safe (hd : Typed M Γ data) (hw : Fits env S w) {pop : Nat} {name i c : String}
    {P : Dict String AttKind} {k : AttKind} (hpop : S.pops[pop]? = some P) (hk : P.get? name = some k)
    (hi : Γ.Has M i fun l c => c = .scalar l) (hc : Γ.Has M c fun _ => k.value) :
    SafeRun env S M Γ (Ops.attrUpdate pop name i c) data w := by
  refine side_safe hd ?_
  split
  · exact ⟨w, rfl, hw⟩
  obtain ⟨cs, h1, h2⟩ := hd.col hi
  have hcs : cs = data.index.map Cell.scalar := by
    clear h1
    rw [Frame.index]
    generalize data.rows = rows at h2
    induction h2 with
    | nil => rfl
    | cons h _ ih => rw [h, ih]; rfl
  subst hcs
  have hid : Ops.idColumn data i = .ok data.index := by
    refine bind_eq_ok.2 ⟨_, h1, ?_⟩
    rw [mapM_ok_iff, List.forall₂_map_left_iff, List.forall₂_same]
    intro _ _; rfl
  obtain ⟨vs, h3, h4, h5⟩ := hd.col' hc
  obtain ⟨w', h6, h7⟩ := onAttribute_safe hw hpop hk (f := fun a => a.update (data.index.zip vs))
    fun a ha => ha.update (by
      rw [List.map_fst_zip (by rw [Frame.index_length]; omega)]; exact hd.index)
      fun x hx => h5 _ (List.of_mem_zip hx).2
  refine ⟨w', ?_, h7⟩
  rw [Act.bind_ok (Act.ofPy_ok h3 w), Act.bind_ok (Act.ofPy_ok hid w), h6]

theorem attrAdd_safe (hd : Typed M Γ data) (hw : Fits env S w) {pop : Nat} {name i a : String}
    {subtract : Bool} {P : Dict String AttKind} {k : AttKind} (hpop : S.pops[pop]? = some P)
    (hk : P.get? name = some k) (hv : ∀ c, k.value c ↔ IsAmount c)
    (hi : Γ.Has M i fun _ => IdOrNa k.known) (ha : Γ.Has M a fun _ => IsAmount) :
    SafeRun env S M Γ (Ops.attrAdd pop name i a subtract) data w := by
  refine side_safe hd ?_
  split
  · exact ⟨w, rfl, hw⟩
  have hi' : Γ.Has M i fun _ => IdIn fun v => v = .na ∨ k.known v := by
    obtain ⟨K, hK, h⟩ := hi
    refine ⟨K, hK, fun l c hl hc => ?_⟩
    rcases h l c hl hc with rfl | ⟨v, rfl, hv⟩
    · exact ⟨.na, rfl, Or.inl rfl⟩
    · exact ⟨v, rfl, Or.inr hv⟩
  obtain ⟨ids, h1, h2, h3⟩ := hd.ids hi'
  obtain ⟨vs, h4, h5, h6⟩ := hd.col' ha
  have : ∃ vs', Ops.addedValues subtract vs = .ok vs' ∧ vs'.length = vs.length ∧
      ∀ c ∈ vs', IsAmount c := by
    cases subtract with
    | false => exact ⟨vs, rfl, rfl, h6⟩
    | true =>
      obtain ⟨vs', hvs⟩ := mapM_isOk (f := Ops.negate) (l := vs) fun c hc => by
        rcases h6 c hc with rfl | ⟨q, rfl⟩
        · exact ⟨.na, rfl⟩
        · exact ⟨.num (-q), rfl⟩
      have hf := mapM_ok_iff.1 hvs
      refine ⟨vs', hvs, hf.length_eq.symm, fun c' hc' => ?_⟩
      obtain ⟨c, hc, e⟩ := forall₂_exists_left hf hc'
      rcases h6 c hc with rfl | ⟨q, rfl⟩
      · cases e; exact Or.inl rfl
      · cases e; exact Or.inr ⟨_, rfl⟩
  obtain ⟨vs', h7, h8, h9⟩ := this
  obtain ⟨w', h10, h11⟩ := onAttribute_safe hw hpop hk (f := fun a => a.add ids vs')
    fun a ha => ha.add hv (by omega) h3 h9
  refine ⟨w', ?_, h11⟩
  rw [Act.bind_ok (Act.ofPy_ok h4 w), Act.bind_ok (Act.ofPy_ok h7 w), Act.bind_ok (Act.ofPy_ok h1 w), h10]

/-- rows made of columns -/
theorem rows_of_columns {α : Type} {Q : α → Cell → Prop} {xs : List α} {cols : List (List Cell)} {n : Nat}
    (h : List.Forall₂ (fun x col => col.length = n ∧ ∀ c ∈ col, Q x c) xs cols) {k : Nat} (hk : k < n) :
    List.Forall₂ Q xs (cols.map fun c => c.getD k Cell.na) := by
  rw [List.forall₂_map_right_iff]
  refine h.imp fun x col hc => hc.2 _ ?_
  rw [List.getD_eq_getElem?_getD, List.getElem?_eq_getElem (by omega), Option.getD_some]
  exact List.getElem_mem _

theorem popUpdate_safe (hd : Typed M Γ data) (hw : Fits env S w) {pop : Nat} {i : String}
    {copy : Dict String String} {P : Dict String AttKind} (hpop : S.pops[pop]? = some P)
    (hnames : ∀ name, name ∈ copy.keys ↔ name ∈ P.keys) (hn : copy.keys.Nodup)
    (hi : Γ.Has M i fun _ => IsId) (hc : ∀ x ∈ copy, Γ.Has M x.2 fun _ => attValue P x.1) :
    SafeRun env S M Γ (Ops.popUpdate pop i copy) data w := by
  refine side_safe hd ?_
  obtain ⟨ids, h1, h2⟩ := hd.ids' hi
  have : ∃ cols, copy.mapM (fun c => data.col c.2) = .ok cols ∧
      List.Forall₂ (fun (x : String × String) col => col.length = data.rows.length ∧
        ∀ c ∈ col, attValue P x.1 c) copy cols := by
    clear hnames hn
    induction copy with
    | nil => exact ⟨[], rfl, .nil⟩
    | cons x copy ih =>
      obtain ⟨cs, e1, e2, e3⟩ := hd.col' (hc x (by simp))
      obtain ⟨cols, e4, e5⟩ := ih fun x hx => hc x (by simp [hx])
      exact ⟨cs :: cols, by rw [List.mapM_cons, e1, e4]; rfl, .cons ⟨e2, e3⟩ e5⟩
  obtain ⟨cols, h3, h4⟩ := this
  obtain ⟨p, h5, h6⟩ := hw.pop hpop
  obtain ⟨p', h7, h8⟩ := h6.update (f := ⟨copy.map Prod.fst,
    ids.zipIdx.map fun x => ⟨x.1, cols.map fun c => c.getD x.2 Cell.na⟩⟩) hnames hn (by
      intro r hr
      obtain ⟨x, hx, rfl⟩ := List.mem_map.1 hr
      have hlt : x.2 < data.rows.length := by
        have := List.snd_lt_of_mem_zipIdx hx
        omega
      rw [List.forall₂_map_left_iff]
      exact rows_of_columns h4 hlt)
  refine ⟨_, ?_, hw.setPop hpop h8⟩
  rw [Act.bind_ok (Act.ofPy_ok (show Ops.updateFrame i copy data = .ok _ from
      bind_eq_ok.2 ⟨_, h1, bind_eq_ok.2 ⟨_, h3, rfl⟩⟩) w),
    Act.bind_ok (getPop_eq_ok.2 ⟨h5, rfl⟩), Act.bind_ok (Act.ofPy_ok h7 w)]
  rfl

end Trumania
