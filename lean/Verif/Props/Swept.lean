import Verif.Lemmas.Watertight
import Verif.Props.Sweep
import Verif.Props.Coons

/-!
# C58, C59, C94: swept components
-/

namespace HV
open Spec

/-! ## Construction -/

/-- Every edge of the cross section ends where the next one starts, up to 1e-12 in each coordinate. -/
def Spec.SectionCloses (cs : List PathObj) : Prop :=
  ∀ i e e', cs[i]? = some e → cs[(i + 1) % cs.length]? = some e' →
    ∃ p q, e.call 1 = .ok p ∧ e'.call 0 = .ok q ∧ |q.x - p.x| ≤ 1e-12 ∧ |q.y - p.y| ≤ 1e-12 ∧ |q.z - p.z| ≤ 1e-12

/-- Opposite edges have the same number of cells. -/
def Spec.OppositeEdgesMatch (d : Dict String ℕ) : Prop :=
  ∃ a b, d.get? "e0" = some a ∧ d.get? "e2" = some a ∧ d.get? "e1" = some b ∧ d.get? "e3" = some b

theorem forM_ok {α : Type} (l : List α) (f : α → Res Unit) : l.forM f = .ok () ↔ ∀ a ∈ l, f a = .ok () := by
  induction l with
  | nil => simp [List.forM, pure, Except.pure]
  | cons a l ih =>
    have : (a :: l).forM f = (f a >>= fun _ => l.forM f) := rfl
    rw [this, bind_ok]
    simp only [ih, List.mem_cons, forall_eq_or_imp]
    exact ⟨fun ⟨_, h⟩ => h, fun h => ⟨(), h⟩⟩

theorem Swept.checkJoint_ok (cs : List PathObj) (i : ℕ) (hi : i < cs.length) :
    Swept.checkJoint cs i = .ok () ↔ ∀ e e', cs[i]? = some e → cs[(i + 1) % cs.length]? = some e' →
      ∃ p q, e.call 1 = .ok p ∧ e'.call 0 = .ok q ∧ |q.x - p.x| ≤ 1e-12 ∧ |q.y - p.y| ≤ 1e-12 ∧ |q.z - p.z| ≤ 1e-12 := by
  have hip : (if i + 1 < cs.length then i + 1 else 0) = (i + 1) % cs.length := by
    split_ifs with h
    · rw [Nat.mod_eq_of_lt h]
    · have : i + 1 = cs.length := by omega
      rw [this, Nat.mod_self]
  have hlt : (i + 1) % cs.length < cs.length := Nat.mod_lt _ (by omega)
  unfold Swept.checkJoint
  simp only [hip, getIdx_eq hi, getIdx_eq hlt, ok_bind, bind_ok, List.getElem?_eq_getElem hi, List.getElem?_eq_getElem hlt, Option.some.injEq,
    forall_eq']
  constructor
  · rintro ⟨p, hp, q, hq, hu⟩
    rintro _ _ rfl rfl
    refine ⟨p, q, hp, hq, ?_⟩
    by_contra hcon
    rw [if_pos (by by_contra h; push Not at h; exact hcon h)] at hu
    cases hu
  · intro h
    obtain ⟨p, q, hp, hq, h1, h2, h3⟩ := h _ _ rfl rfl
    refine ⟨p, hp, q, hq, ?_⟩
    rw [if_neg (by push Not; exact ⟨h1, h2, h3⟩)]
    rfl

theorem Swept.checkSection_ok (n : ℕ) (cs : List PathObj) :
    Swept.checkSection n cs = .ok () ↔ cs.length = n ∧ SectionCloses cs := by
  unfold Swept.checkSection
  by_cases h : cs.length = n
  · simp only [h, ne_eq, not_true_eq_false, if_false, pure_eq, ok_bind, true_and]
    rw [forM_ok]
    constructor
    · intro hj i e e' he he'
      have hi : i < cs.length := (List.getElem?_eq_some_iff.1 he).1
      exact (Swept.checkJoint_ok cs i hi).1 (hj i (List.mem_range.2 (by omega))) e e' he he'
    · intro hc i hi
      exact (Swept.checkJoint_ok cs i (by have := List.mem_range.1 hi; omega)).2 (hc i)
  · simp only [ne_eq, h, not_false_eq_true, if_true, throw_eq, error_bind, false_and, iff_false]
    exact fun h => by cases h

/-- C58: construction succeeds exactly for a non-empty list of closed sections with equally many edges, with closed ends only
for four edges, and then only with matching resolutions on opposite edges if the resolution is a dictionary. -/
theorem C58_accepts_iff (sections : List (List PathObj)) (close_ends : Bool) (res : Reso) (name : Option String) :
    (∃ c, Swept.init sections close_ends res name = .ok c) ↔
      ∃ first, sections[0]? = some first ∧ (∀ cs ∈ sections, cs.length = first.length ∧ SectionCloses cs) ∧
        (close_ends = true → first.length = 4 ∧ ∀ d, res = .dict d → OppositeEdgesMatch d) := by
  unfold Swept.init
  cases hf : sections[0]? with
  | none => simp [SweptPatch.getIdx, hf, bind, Except.bind]
  | some first =>
    have hg : SweptPatch.getIdx sections 0 = .ok first := by rw [getIdx_ok]; exact hf
    simp only [hg, ok_bind, bind_ok, pure_ok, Option.some.injEq, exists_eq_left']
    constructor
    · rintro ⟨c, u, h, -⟩
      unfold Swept.checkOptions at h
      rw [bind_ok] at h
      obtain ⟨u', h1, h2⟩ := h
      refine ⟨fun cs hcs => (Swept.checkSection_ok _ cs).1 ((forM_ok _ _).1 h1 cs hcs), ?_⟩
      intro hce
      subst hce
      by_cases h4 : first.length = 4
      · refine ⟨h4, ?_⟩
        intro d hd
        subst hd
        simp only [h4, ne_eq, not_true_eq_false, and_false, if_false, pure_eq, ok_bind, Swept.checkRes, if_true,
          bind_ok] at h2
        obtain ⟨a, ha, a', ha', b, hb, b', hb', hu⟩ := h2
        have gs : ∀ k v, Dict.get d k = .ok v → d.get? k = some v := by
          intro k v hk
          unfold Dict.get at hk
          split at hk
          · cases hk; assumption
          · cases hk
        by_cases hab : a = a' ∧ b = b'
        · exact ⟨a, b, gs _ _ ha, by rw [hab.1]; exact gs _ _ ha', gs _ _ hb, by rw [hab.2]; exact gs _ _ hb'⟩
        · rw [if_pos (by tauto)] at hu
          cases hu
      · simp [h4, bind, Except.bind, throw, throwThe, MonadExceptOf.throw] at h2
    · rintro ⟨h1, h2⟩
      refine ⟨_, (), ?_, rfl⟩
      unfold Swept.checkOptions
      rw [(forM_ok _ _).2 fun cs hcs => (Swept.checkSection_ok _ cs).2 (h1 cs hcs), ok_bind]
      cases close_ends with
      | false => cases res <;> simp [Swept.checkRes, bind, Except.bind, pure, Except.pure]
      | true =>
        obtain ⟨h4, hd⟩ := h2 rfl
        cases res with
        | int n => simp [Swept.checkRes, h4, bind, Except.bind, pure, Except.pure]
        | dict d =>
          obtain ⟨a, b, e1, e2, e3, e4⟩ := hd d rfl
          simp [Swept.checkRes, h4, Dict.get, e1, e2, e3, e4, bind, Except.bind, pure, Except.pure]

/-- C58: what a successful construction returns: a new component of the given sections, whatever the options. -/
theorem C58_result (sections : List (List PathObj)) (close_ends : Bool) (res : Reso) (name : Option String) (c : Comp)
    (h : Swept.init sections close_ends res name = .ok c) :
    c.patches = [] ∧ c.stl_resolution = res ∧ c.name = name ∧ c.componenttype = "swept" ∧ c.mesh_ = none := by
  unfold Swept.init at h
  rw [bind_ok] at h
  obtain ⟨f, -, h⟩ := h
  rw [bind_ok] at h
  obtain ⟨u, -, h⟩ := h
  cases h
  exact ⟨rfl, rfl, rfl, rfl, rfl⟩

/-! ## The swept sides -/

/-- The value of a successful evaluation. -/
def okv (x : Res V) : V := match x with
  | .ok v => v
  | .error _ => ⟨0, 0, 0⟩

theorem okv_eq {x : Res V} (h : ∃ p, x = .ok p) : x = .ok (okv x) := by
  obtain ⟨p, rfl⟩ := h; rfl

/-- A patch swept along edges only depends on the points of the edges at the edge parameter. -/
theorem swept_congr {ι : Type} (S : List ι) (f g : ι → PathObj) (s t : ℝ) (h : ∀ c ∈ S, (f c).call s = (g c).call t)
    (r : ℝ) : SweptPatchfromEdges (S.map f) r s = SweptPatchfromEdges (S.map g) r t := by
  have key : ∀ (α : Type) (k : V → Res α) i, (SweptPatch.getIdx (S.map f) i >>= fun e => e.call s >>= k) =
      (SweptPatch.getIdx (S.map g) i >>= fun e => e.call t >>= k) := by
    intro α k i
    unfold SweptPatch.getIdx
    rw [List.getElem?_map, List.getElem?_map]
    cases hc : S[i]? with
    | none => rfl
    | some c =>
      simp only [Option.map_some, ok_bind]
      rw [h c (List.mem_of_getElem? hc)]
  unfold SweptPatchfromEdges
  simp only [List.length_map]
  cases List.findIdx? (fun q => decide (q = r)) (linspace01 S.length) with
  | some i =>
    have := key V (fun v => .ok v) i
    have e : ∀ x : Res V, (x >>= fun v => Except.ok v) = x := by rintro (e | v) <;> rfl
    simpa only [e] using this
  | none =>
    dsimp only
    cases List.findIdx? (fun q => decide (q > r)) (linspace01 S.length) with
    | none => rfl
    | some ia =>
      dsimp only
      rw [key]
      congr 1
      funext e
      congr 1
      funext above
      exact key _ _ _

theorem sum_cycle {B : Type} [AddCommGroup B] (A : ℕ → B) (m : ℕ) :
    ∑ k ∈ Finset.range m, A ((k + 1) % m) = ∑ k ∈ Finset.range m, A k := by
  cases m with
  | zero => rfl
  | succ m =>
    rw [Finset.sum_range_succ, Nat.mod_self, Finset.sum_range_succ' A]
    congr 1
    apply Finset.sum_congr rfl
    intro k hk
    have := Finset.mem_range.1 hk
    rw [Nat.mod_eq_of_lt (by omega)]

/-- Edge number `ne` of a cross section. -/
def edgeOf (ne : ℕ) (cs : List PathObj) : PathObj := cs.getD ne ⟨fun _ => .error .exc, .error .exc⟩

/-- All edges evaluate on `[0,1]`. -/
def Spec.EdgesTotal (S : List (List PathObj)) : Prop :=
  ∀ cs ∈ S, ∀ e ∈ cs, ∀ t : ℝ, 0 ≤ t → t ≤ 1 → ∃ p, e.call t = .ok p

/-- Every edge of every cross section ends exactly where the next one starts. -/
def Spec.ExactlyClosed (S : List (List PathObj)) : Prop :=
  ∀ cs ∈ S, ∀ i e e', cs[i]? = some e → cs[(i + 1) % cs.length]? = some e' → e.call 1 = e'.call 0

theorem getElem?_edgeOf {cs : List PathObj} {ne : ℕ} (h : ne < cs.length) : cs[ne]? = some (edgeOf ne cs) := by
  simp [edgeOf, h]

theorem edgeOf_mem {cs : List PathObj} {ne : ℕ} (h : ne < cs.length) : edgeOf ne cs ∈ cs :=
  List.mem_of_getElem? (getElem?_edgeOf h)

theorem edgePatch_eq (S : List (List PathObj)) (m : ℕ) (hlen : ∀ cs ∈ S, cs.length = m) (ne : ℕ) (hne : ne < m) :
    Swept.edgePatch S ne = .ok (SweptPatchfromEdges (S.map (edgeOf ne))) := by
  unfold Swept.edgePatch
  rw [mapM_ok S _ (edgeOf ne) fun cs hcs => by
    rw [getIdx_ok]; exact getElem?_edgeOf (by rw [hlen cs hcs]; exact hne)]
  rfl

/-- The grid of points of the patch swept by edge number `ne`. -/
noncomputable def sweptGrid (S : List (List PathObj)) (n ne i j : ℕ) : V :=
  okv (SweptPatchfromEdges (S.map (edgeOf ne)) ((i : ℝ) / n) ((j : ℝ) / n))

theorem unit_div (n i : ℕ) (hn : 1 ≤ n) (hi : i ≤ n) : 0 ≤ (i : ℝ) / n ∧ (i : ℝ) / n ≤ 1 := by
  have hnp : (0 : ℝ) < n := by positivity
  exact ⟨by positivity, by rw [div_le_one hnp]; exact_mod_cast hi⟩

theorem sweptGrid_eq (S : List (List PathObj)) (m : ℕ) (hlen : ∀ cs ∈ S, cs.length = m) (h2 : 2 ≤ S.length)
    (htot : EdgesTotal S) (n : ℕ) (hn : 1 ≤ n) (ne : ℕ) (hne : ne < m) (i j : ℕ) (hi : i ≤ n) (hj : j ≤ n) :
    SweptPatchfromEdges (S.map (edgeOf ne)) ((i : ℝ) / n) ((j : ℝ) / n) = .ok (sweptGrid S n ne i j) := by
  apply okv_eq
  obtain ⟨a1, a2⟩ := unit_div n i hn hi
  obtain ⟨b1, b2⟩ := unit_div n j hn hj
  refine (C30_total (S.map (edgeOf ne)) (by rwa [List.length_map]) _ _).1 a1 a2 ?_
  intro e he
  obtain ⟨cs, hcs, rfl⟩ := List.mem_map.1 he
  exact htot cs hcs _ (edgeOf_mem (by rw [hlen cs hcs]; exact hne)) _ b1 b2

/-- The points of edge number `ne` of a section. -/
noncomputable def edgePts (n : ℕ) (cs : List PathObj) (ne j : ℕ) : V := okv ((edgeOf ne cs).call ((j : ℝ) / n))

theorem sweptGrid_first (S : List (List PathObj)) (first : List PathObj) (h2 : 2 ≤ S.length) (hf : S[0]? = some first)
    (n ne j : ℕ) : sweptGrid S n ne 0 j = edgePts n first ne j := by
  have := C30_on_edges (S.map (edgeOf ne)) 0 (by rw [List.length_map]; omega) (by rwa [List.length_map]) ((j : ℝ) / n)
  simp only [Nat.cast_zero, zero_div] at this
  unfold sweptGrid edgePts
  simp only [Nat.cast_zero, zero_div]
  rw [this, List.getElem_map]
  have : S[0] = first := (List.getElem?_eq_some_iff.1 hf).2
  rw [this]

theorem sweptGrid_last (S : List (List PathObj)) (last : List PathObj) (h2 : 2 ≤ S.length)
    (hf : S[S.length - 1]? = some last) (n : ℕ) (hn : 1 ≤ n) (ne j : ℕ) : sweptGrid S n ne n j = edgePts n last ne j := by
  have := C30_on_edges (S.map (edgeOf ne)) (S.length - 1) (by rw [List.length_map]; omega) (by rwa [List.length_map])
    ((j : ℝ) / n)
  have e : (((S.length - 1 : ℕ) : ℝ) / (((S.map (edgeOf ne)).length : ℝ) - 1)) = (n : ℝ) / n := by
    rw [List.length_map, Nat.cast_sub (by omega), Nat.cast_one, div_self, div_self]
    · positivity
    · have : (2 : ℝ) ≤ S.length := by exact_mod_cast h2
      linarith
  rw [e] at this
  unfold sweptGrid edgePts
  rw [this, List.getElem_map]
  have : S[S.length - 1] = last := (List.getElem?_eq_some_iff.1 hf).2
  rw [this]

theorem sweptGrid_seam (S : List (List PathObj)) (m : ℕ) (hlen : ∀ cs ∈ S, cs.length = m) (hcl : ExactlyClosed S)
    (n : ℕ) (hn : 1 ≤ n) (ne : ℕ) (hne : ne < m) (i : ℕ) : sweptGrid S n ne i n = sweptGrid S n ((ne + 1) % m) i 0 := by
  unfold sweptGrid
  rw [div_self (by positivity : (n : ℝ) ≠ 0), Nat.cast_zero, zero_div]
  congr 1
  apply swept_congr
  intro cs hcs
  refine hcl cs hcs ne _ _ (getElem?_edgeOf (by rw [hlen cs hcs]; exact hne)) ?_
  rw [hlen cs hcs]
  exact getElem?_edgeOf (by rw [hlen cs hcs]; exact Nat.mod_lt _ (by omega))

/-- The edge sum of the swept sides: the edges of the last section minus those of the first. -/
theorem sides_sum {A : Type} [AddCommGroup A] (φ : V → V → A) (S : List (List PathObj)) (m : ℕ) (hlen : ∀ cs ∈ S, cs.length = m)
    (h2 : 2 ≤ S.length) (hcl : ExactlyClosed S) (n : ℕ) (hn : 1 ≤ n) (first last : List PathObj)
    (hf : S[0]? = some first) (hl : S[S.length - 1]? = some last) :
    ((List.range m).map fun ne => bdry φ n n (sweptGrid S n ne)).sum =
      ∑ ne ∈ Finset.range m, pathSum φ (edgePts n last ne) n - ∑ ne ∈ Finset.range m, pathSum φ (edgePts n first ne) n := by
  rw [sum_map_range]
  have := sum_cycle (fun ne => pathSum φ (fun i => sweptGrid S n ne i 0) n) m
  unfold bdry
  rw [Finset.sum_sub_distrib, Finset.sum_sub_distrib, Finset.sum_add_distrib]
  have e1 : ∑ ne ∈ Finset.range m, pathSum φ (fun i => sweptGrid S n ne i n) n =
      ∑ ne ∈ Finset.range m, pathSum φ (fun i => sweptGrid S n ((ne + 1) % m) i 0) n := by
    apply Finset.sum_congr rfl
    intro ne hne
    apply pathSum_congr
    intro i _
    exact sweptGrid_seam S m hlen hcl n hn ne (Finset.mem_range.1 hne) i
  have e2 : ∀ ne, (fun j => sweptGrid S n ne n j) = edgePts n last ne := fun ne => by
    funext j; exact sweptGrid_last S last h2 hl n hn ne j
  have e3 : ∀ ne, (fun j => sweptGrid S n ne 0 j) = edgePts n first ne := fun ne => by
    funext j; exact sweptGrid_first S first h2 hf n ne j
  rw [e1, this]
  simp only [e2, e3]
  abel

/-! ## Running the assignments -/

theorem runSteps_append (l l' : List GenStep) (h : (runSteps l).err = none) :
    runSteps (l ++ l') = ⟨(runSteps l).items ++ (runSteps l').items, (runSteps l).resR ++ (runSteps l').resR,
      (runSteps l).resS ++ (runSteps l').resS, (runSteps l').err⟩ := by
  induction l with
  | nil => simp [runSteps]
  | cons a l ih =>
    rcases a with ⟨k, (e | v)⟩ | ⟨k, (e | v)⟩ | ⟨k, (e | v)⟩
    all_goals first | (simp [runSteps] at h; done) | skip
    all_goals
      have h' : (runSteps l).err = none := h
      simp [runSteps, ih h']

theorem runSteps_edges (S : List (List PathObj)) (res : Reso) (F : ℕ → Surf) (ns : ℕ) (N : ℕ → ℕ) (l : List ℕ)
    (h : ∀ ne ∈ l, Swept.edgePatch S ne = .ok (F ne)) (hsw : Swept.resOf res "sweep" = .ok ns)
    (hN : ∀ ne ∈ l, Swept.resOf res ("e" ++ toString ne) = .ok (N ne)) :
    runSteps (l.flatMap (Swept.edgeSteps S res)) =
      ⟨l.map fun ne => ("swept_patch_" ++ toString ne, F ne), l.map fun ne => ("swept_patch_" ++ toString ne, ns),
        l.map fun ne => ("swept_patch_" ++ toString ne, N ne), none⟩ := by
  induction l with
  | nil => rfl
  | cons a l ih =>
    have ih := ih (fun ne hne => h ne (by simp [hne])) (fun ne hne => hN ne (by simp [hne]))
    rw [List.flatMap_cons]
    simp only [Swept.edgeSteps, h a (by simp), hsw, hN a (by simp), runSteps, ih, List.cons_append, List.nil_append,
      List.map_cons]

/-! ## Open ends -/

/-- The directed edges of a section's loop at resolution `n`. -/
noncomputable def loopEdges (n m : ℕ) (cs : List PathObj) : List (V × V) :=
  (List.range m).flatMap fun ne => pathEdges (edgePts n cs ne) n

theorem edgeSum_loop {A : Type} [AddCommGroup A] (φ : V → V → A) (n m : ℕ) (cs : List PathObj) :
    edgeSum φ (loopEdges n m cs) = ∑ ne ∈ Finset.range m, pathSum φ (edgePts n cs ne) n := by
  unfold loopEdges
  rw [List.flatMap_def, edgeSum_flatten, List.map_map, sum_map_range]
  apply Finset.sum_congr rfl
  intro ne _
  exact edgeSum_pathEdges φ _ _

/-- C94: a swept component without end patches generates and meshes, and its mesh is closed except for the loops of the
first and last sections: together with the loop of the first section and the reversed loop of the last every directed edge
is matched by its reverse. -/
theorem C94_open_boundary (S : List (List PathObj)) (first last : List PathObj) (hf : S[0]? = some first)
    (hl : S[S.length - 1]? = some last) (h2 : 2 ≤ S.length) (hlen : ∀ cs ∈ S, cs.length = first.length)
    (hpos : first ≠ []) (htot : EdgesTotal S) (hcl : ExactlyClosed S) (n : ℕ) (hn : 1 ≤ n) (name : Option String) :
    ∃ c, Swept.init S false (.int n) name = .ok c ∧ ∀ (h : Heap) (id : ℕ), h id = c →
    ∃ h' M c', generatePatches h id = (.ok (), h') ∧ (h' id).mesh = (.ok M, c') ∧
      ∀ a b, edgeCount (edges M.tris ++ (loopEdges n first.length first ++ (loopEdges n first.length last).map Prod.swap)) a b =
        edgeCount (edges M.tris ++ (loopEdges n first.length first ++ (loopEdges n first.length last).map Prod.swap)) b a := by
  have hg : SweptPatch.getIdx S 0 = .ok first := by rw [getIdx_ok]; exact hf
  refine ⟨Swept.comp S first.length false (.int n) name, ?_, ?_⟩
  · have hex : ∃ c, Swept.init S false (.int n) name = .ok c := by
      rw [C58_accepts_iff]
      refine ⟨first, hf, fun cs hcs => ⟨hlen cs hcs, ?_⟩, by simp⟩
      intro i e e' he he'
      obtain ⟨p, hp⟩ := htot cs hcs e (List.mem_of_getElem? he) 1 (by norm_num) le_rfl
      refine ⟨p, p, hp, by rw [← hcl cs hcs i e e' he he', hp], ?_⟩
      norm_num
    obtain ⟨c, hc⟩ := hex
    have := hc
    unfold Swept.init at this
    rw [hg, ok_bind, bind_ok] at this
    obtain ⟨u, -, hu⟩ := this
    cases hu
    exact hc
  · intro h id hid
    set m := first.length with hm
    have hmpos : 0 < m := by rw [hm]; exact List.length_pos_iff.2 hpos
    have hsteps : runSteps (Swept.steps S m false (.int n)) =
        ⟨(List.range m).map fun ne => ("swept_patch_" ++ toString ne, SweptPatchfromEdges (S.map (edgeOf ne))),
          (List.range m).map fun ne => ("swept_patch_" ++ toString ne, n),
          (List.range m).map fun ne => ("swept_patch_" ++ toString ne, n), none⟩ := by
      unfold Swept.steps
      simp only [Bool.false_eq_true, if_false, List.append_nil]
      exact runSteps_edges S _ _ n (fun _ => n) _ (fun ne hne => edgePatch_eq S m hlen ne (List.mem_range.1 hne)) rfl fun _ _ => rfl
    obtain ⟨h', M, c', hgen, _, hM, ht⟩ := generated_mesh h id (fun res => runSteps (Swept.steps S m false res))
      (by rw [hid]; rfl) n hn (by rw [hid]; rfl) (by rw [hid]; rfl) (by rw [hid]; rfl) (by rw [hid]; rfl) (by rw [hid]; rfl)
      (by rw [hsteps]) (by rw [hsteps, List.map_map]; exact prefix_ix_nodup _ m)
      (by rw [hsteps]; simp [hmpos.ne'])
      ((List.range m).map (sweptGrid S n)) (by
        rw [hsteps, List.forall₂_map_right_iff, List.forall₂_map_left_iff, List.forall₂_same]
        intro ne hne i hi j hj
        exact sweptGrid_eq S m hlen h2 htot n hn ne (List.mem_range.1 hne) i j hi hj)
    refine ⟨h', M, c', hgen, hM, ?_⟩
    rw [balanced_iff_edgeSum]
    intro φ hφ
    rw [edgeSum_append, edgeSum_append, edgeSum_swap φ hφ, edgeSum_loop, edgeSum_loop, ht, edgeSum_grids φ hφ, List.map_map]
    have := sides_sum φ S m hlen h2 hcl n hn first last hf hl
    simp only [Function.comp_def]
    rw [this]
    ring

/-! ## Closed ends -/

/-- A Coons patch of four edges that evaluate on `[0,1]` and meet exactly. -/
theorem coons_sides (n e s w : PathObj)
    (tn : ∀ t : ℝ, 0 ≤ t → t ≤ 1 → ∃ p, n.call t = .ok p) (te : ∀ t : ℝ, 0 ≤ t → t ≤ 1 → ∃ p, e.call t = .ok p)
    (ts : ∀ t : ℝ, 0 ≤ t → t ≤ 1 → ∃ p, s.call t = .ok p) (tw : ∀ t : ℝ, 0 ≤ t → t ≤ 1 → ∃ p, w.call t = .ok p)
    (h00 : s.call 0 = w.call 0) (h10 : s.call 1 = e.call 0) (h01 : n.call 0 = w.call 1) (h11 : n.call 1 = e.call 1) :
    ∃ F, CoonsPatch n e s w = .ok F ∧ ∀ r t : ℝ, 0 ≤ r → r ≤ 1 → 0 ≤ t → t ≤ 1 →
      (∃ p, F r t = .ok p) ∧ F r 0 = s.call r ∧ F r 1 = n.call r ∧ F 0 r = w.call r ∧ F 1 r = e.call r := by
  have hc : ∀ u : V, CornerClose u u := by
    intro u i; rw [sub_self, abs_zero]; positivity
  obtain ⟨s0, hs0⟩ := ts 0 le_rfl zero_le_one
  obtain ⟨s1, hs1⟩ := ts 1 zero_le_one le_rfl
  obtain ⟨n0, hn0⟩ := tn 0 le_rfl zero_le_one
  obtain ⟨n1, hn1⟩ := tn 1 zero_le_one le_rfl
  obtain ⟨c, hcoons⟩ := (C23_accepts_iff n e s w ⟨0, 0, 0⟩).2 ⟨s0, s1, n0, n1, s0, n0, s1, n1, hs0, hs1, hn0, hn1,
    by rw [← h00, hs0], by rw [← h01, hn0], by rw [← h10, hs1], by rw [← h11, hn1], hc _, hc _, hc _, hc _⟩
  refine ⟨c.call, by unfold CoonsPatch; rw [hcoons]; rfl, ?_⟩
  intro r t r0 r1 t0 t1
  obtain ⟨sr, hsr⟩ := ts r r0 r1
  obtain ⟨nr, hnr⟩ := tn r r0 r1
  obtain ⟨wr, hwr⟩ := tw r r0 r1
  obtain ⟨er, her⟩ := te r r0 r1
  obtain ⟨wt, hwt⟩ := tw t t0 t1
  obtain ⟨et, het⟩ := te t t0 t1
  refine ⟨?_, C22_edges n e s w c hcoons h00 h10 h01 h11 r sr nr wr er hsr hnr hwr her⟩
  obtain ⟨a1, a2, a3, a4, a5, a6, a7, a8, -, -, -, -, -, -, -, -, -, -, -, -, rfl⟩ :=
    (Coons.ofEdges_ok_iff n e s w _ c).1 hcoons
  simp only [Coons.call, hsr, hnr, hwt, het, bind, Except.bind, pure, Except.pure]
  exact ⟨_, rfl⟩

theorem reversed_call (p : PathObj) (t : ℝ) : (ReversedPath p).call t = p.call (1 - t) := by
  change p.call (1 + t * (0 - 1)) = _
  congr 1
  ring

/-- The boundary of the front patch is the loop of the first section; that of the rear patch is the reversed loop of the
last section. -/
theorem end_patches (S : List (List PathObj)) (hcl : ExactlyClosed S) (htot : EdgesTotal S) (cs : List PathObj)
    (hcs : cs ∈ S) (h4 : cs.length = 4) (n : ℕ) (hn : 1 ≤ n) :
    (∀ (hf : S[0]? = some cs), ∃ F, Swept.frontPatch S = .ok F ∧ (∀ i ≤ n, ∀ j ≤ n, ∃ p, F ((i : ℝ) / n) ((j : ℝ) / n) = .ok p) ∧
      ∀ (A : Type) [AddCommGroup A] (φ : V → V → A), Anti φ → bdry φ n n (fun i j => okv (F ((i : ℝ) / n) ((j : ℝ) / n))) =
        ∑ ne ∈ Finset.range 4, pathSum φ (edgePts n cs ne) n) ∧
    (∀ (hl : S[S.length - 1]? = some cs), ∃ F, Swept.rearPatch S = .ok F ∧
      (∀ i ≤ n, ∀ j ≤ n, ∃ p, F ((i : ℝ) / n) ((j : ℝ) / n) = .ok p) ∧
      ∀ (A : Type) [AddCommGroup A] (φ : V → V → A), Anti φ → bdry φ n n (fun i j => okv (F ((i : ℝ) / n) ((j : ℝ) / n))) =
        - ∑ ne ∈ Finset.range 4, pathSum φ (edgePts n cs ne) n) := by
  have hn0 : (n : ℝ) ≠ 0 := by positivity
  have ht : ∀ ne < 4, ∀ t : ℝ, 0 ≤ t → t ≤ 1 → ∃ p, (edgeOf ne cs).call t = .ok p := fun ne hne =>
    htot cs hcs _ (edgeOf_mem (by omega))
  have hr : ∀ ne < 4, ∀ t : ℝ, 0 ≤ t → t ≤ 1 → ∃ p, (ReversedPath (edgeOf ne cs)).call t = .ok p := by
    intro ne hne t t0 t1
    rw [reversed_call]
    exact ht ne hne _ (by linarith) (by linarith)
  have hj : ∀ ne < 4, (edgeOf ne cs).call 1 = (edgeOf ((ne + 1) % 4) cs).call 0 := by
    intro ne hne
    refine hcl cs hcs ne _ _ (getElem?_edgeOf (by omega)) ?_
    rw [h4]
    exact getElem?_edgeOf (by omega)
  have hg : ∀ ne < 4, SweptPatch.getIdx cs ne = .ok (edgeOf ne cs) := fun ne hne => by
    rw [getIdx_ok]; exact getElem?_edgeOf (by omega)
  have j0 := hj 0 (by omega)
  have j1 := hj 1 (by omega)
  have j2 := hj 2 (by omega)
  have j3 := hj 3 (by omega)
  simp only [zero_add, Nat.reduceAdd, Nat.reduceMod] at j0 j1 j2 j3
  have hrev : ∀ (A : Type) [AddCommGroup A] (φ : V → V → A), Anti φ → ∀ ne < 4,
      pathSum φ (fun j => okv ((ReversedPath (edgeOf ne cs)).call ((j : ℕ) / n : ℝ))) n = - pathSum φ (edgePts n cs ne) n := by
    intro A _ φ hφ ne _
    rw [← pathSum_reverse φ hφ]
    apply pathSum_congr
    intro i hi
    rw [reversed_call]
    unfold edgePts
    congr 2
    rw [Nat.cast_sub hi, sub_div, div_self hn0]
  constructor
  · intro hf
    obtain ⟨F, hF, hs⟩ := coons_sides (ReversedPath (edgeOf 2 cs)) (edgeOf 1 cs) (edgeOf 0 cs) (ReversedPath (edgeOf 3 cs))
      (hr 2 (by omega)) (ht 1 (by omega)) (ht 0 (by omega)) (hr 3 (by omega))
      (by rw [reversed_call, sub_zero, j3]) (by rw [j0])
      (by rw [reversed_call, reversed_call, sub_zero, sub_self, j2]) (by rw [reversed_call, sub_self, j1])
    refine ⟨F, ?_, ?_, ?_⟩
    · unfold Swept.frontPatch
      rw [getIdx_ok.2 hf]
      simp only [ok_bind, hg 0 (by omega), hg 1 (by omega), hg 2 (by omega), hg 3 (by omega)]
      exact hF
    · intro i hi j hj
      obtain ⟨a1, a2⟩ := unit_div n i hn hi
      obtain ⟨b1, b2⟩ := unit_div n j hn hj
      exact (hs _ _ a1 a2 b1 b2).1
    · intro A _ φ hφ
      have e1 : pathSum φ (fun i => okv (F ((i : ℕ) / n : ℝ) (((0 : ℕ) : ℝ) / n))) n = pathSum φ (edgePts n cs 0) n := by
        apply pathSum_congr
        intro i hi
        obtain ⟨a1, a2⟩ := unit_div n i hn hi
        rw [Nat.cast_zero, zero_div, (hs _ _ a1 a2 a1 a2).2.1]
        rfl
      have e2 : pathSum φ (fun j => okv (F ((n : ℕ) / n : ℝ) ((j : ℕ) / n : ℝ))) n = pathSum φ (edgePts n cs 1) n := by
        apply pathSum_congr
        intro i hi
        obtain ⟨a1, a2⟩ := unit_div n i hn hi
        rw [div_self hn0, (hs _ _ a1 a2 a1 a2).2.2.2.2]
        rfl
      have e3 : pathSum φ (fun i => okv (F ((i : ℕ) / n : ℝ) ((n : ℕ) / n : ℝ))) n = - pathSum φ (edgePts n cs 2) n := by
        rw [← hrev _ φ hφ 2 (by omega)]
        apply pathSum_congr
        intro i hi
        obtain ⟨a1, a2⟩ := unit_div n i hn hi
        rw [div_self hn0, (hs _ _ a1 a2 a1 a2).2.2.1]
      have e4 : pathSum φ (fun j => okv (F (((0 : ℕ) : ℝ) / n) ((j : ℕ) / n : ℝ))) n = - pathSum φ (edgePts n cs 3) n := by
        rw [← hrev _ φ hφ 3 (by omega)]
        apply pathSum_congr
        intro i hi
        obtain ⟨a1, a2⟩ := unit_div n i hn hi
        rw [Nat.cast_zero, zero_div, (hs _ _ a1 a2 a1 a2).2.2.2.1]
      unfold bdry
      rw [e1, e2, e3, e4]
      simp only [Finset.sum_range_succ, Finset.sum_range_zero]
      abel
  · intro hl
    obtain ⟨F, hF, hs⟩ := coons_sides (edgeOf 2 cs) (ReversedPath (edgeOf 3 cs)) (ReversedPath (edgeOf 0 cs)) (edgeOf 1 cs)
      (ht 2 (by omega)) (hr 3 (by omega)) (hr 0 (by omega)) (ht 1 (by omega))
      (by rw [reversed_call, sub_zero, j0]) (by rw [reversed_call, reversed_call, sub_zero, sub_self, j3])
      (by rw [j1]) (by rw [reversed_call, sub_self, j2])
    refine ⟨F, ?_, ?_, ?_⟩
    · unfold Swept.rearPatch
      rw [getIdx_ok.2 hl]
      simp only [ok_bind, hg 0 (by omega), hg 1 (by omega), hg 2 (by omega), hg 3 (by omega)]
      exact hF
    · intro i hi j hj
      obtain ⟨a1, a2⟩ := unit_div n i hn hi
      obtain ⟨b1, b2⟩ := unit_div n j hn hj
      exact (hs _ _ a1 a2 b1 b2).1
    · intro A _ φ hφ
      have e1 : pathSum φ (fun i => okv (F ((i : ℕ) / n : ℝ) (((0 : ℕ) : ℝ) / n))) n = - pathSum φ (edgePts n cs 0) n := by
        rw [← hrev _ φ hφ 0 (by omega)]
        apply pathSum_congr
        intro i hi
        obtain ⟨a1, a2⟩ := unit_div n i hn hi
        rw [Nat.cast_zero, zero_div, (hs _ _ a1 a2 a1 a2).2.1]
      have e2 : pathSum φ (fun j => okv (F ((n : ℕ) / n : ℝ) ((j : ℕ) / n : ℝ))) n = - pathSum φ (edgePts n cs 3) n := by
        rw [← hrev _ φ hφ 3 (by omega)]
        apply pathSum_congr
        intro i hi
        obtain ⟨a1, a2⟩ := unit_div n i hn hi
        rw [div_self hn0, (hs _ _ a1 a2 a1 a2).2.2.2.2]
      have e3 : pathSum φ (fun i => okv (F ((i : ℕ) / n : ℝ) ((n : ℕ) / n : ℝ))) n = pathSum φ (edgePts n cs 2) n := by
        apply pathSum_congr
        intro i hi
        obtain ⟨a1, a2⟩ := unit_div n i hn hi
        rw [div_self hn0, (hs _ _ a1 a2 a1 a2).2.2.1]
        rfl
      have e4 : pathSum φ (fun j => okv (F (((0 : ℕ) : ℝ) / n) ((j : ℕ) / n : ℝ))) n = pathSum φ (edgePts n cs 1) n := by
        apply pathSum_congr
        intro i hi
        obtain ⟨a1, a2⟩ := unit_div n i hn hi
        rw [Nat.cast_zero, zero_div, (hs _ _ a1 a2 a1 a2).2.2.2.1]
        rfl
      unfold bdry
      rw [e1, e2, e3, e4]
      simp only [Finset.sum_range_succ, Finset.sum_range_zero]
      abel

/-- The resolution a swept component uses: `ns` cells along the sweep and across it on the sides, `nf` cells on the end
patches. -/
def Spec.SweptRes (res : Reso) (ns nf : ℕ) : Prop :=
  res = .int ns ∧ nf = ns ∨
  ∃ d m, res = .dict d ∧ d.get? "sweep" = some ns ∧ d.get? "e0" = some nf ∧ d.get? "e2" = some nf ∧
    d.get? "e1" = some m ∧ d.get? "e3" = some m

/-- The edge sums of a closed-ended swept component: the loops of the two end sections at the resolution of the sides,
against those at the resolution of the ends. -/
theorem closed_swept_mesh (S : List (List PathObj)) (first last : List PathObj) (hf : S[0]? = some first)
    (hl : S[S.length - 1]? = some last) (h2 : 2 ≤ S.length) (hlen : ∀ cs ∈ S, cs.length = 4) (htot : EdgesTotal S)
    (hcl : ExactlyClosed S) (res : Reso) (ns nf : ℕ) (hres : SweptRes res ns nf) (hns : 1 ≤ ns) (hnf : 1 ≤ nf)
    (name : Option String) :
    ∃ c, Swept.init S true res name = .ok c ∧ ∀ (h : Heap) (id : ℕ), h id = c →
    ∃ h' M c', generatePatches h id = (.ok (), h') ∧ (h' id).mesh = (.ok M, c') ∧
      (∀ (A : Type) [AddCommGroup A] (φ : V → V → A), Anti φ → edgeSum φ (edges M.tris) =
        (edgeSum φ (loopEdges ns 4 last) - edgeSum φ (loopEdges nf 4 last)) -
        (edgeSum φ (loopEdges ns 4 first) - edgeSum φ (loopEdges nf 4 first))) ∧
      ∃ F0 F1, Swept.frontPatch S = .ok F0 ∧ Swept.rearPatch S = .ok F1 ∧
        (∀ i ≤ nf, ∀ j ≤ nf, ∃ p, F0 ((i : ℝ) / nf) ((j : ℝ) / nf) = .ok p) ∧
        (∀ i ≤ nf, ∀ j ≤ nf, ∃ p, F1 ((i : ℝ) / nf) ((j : ℝ) / nf) = .ok p) ∧
        (∀ φ : V → V → ℝ, Anti φ → bdry φ nf nf (fun i j => okv (F0 ((i : ℝ) / nf) ((j : ℝ) / nf))) = edgeSum φ (loopEdges nf 4 first) ∧
          bdry φ nf nf (fun i j => okv (F1 ((i : ℝ) / nf) ((j : ℝ) / nf))) = - edgeSum φ (loopEdges nf 4 last)) ∧
        (h' id).patches = ((List.range 4).map fun ne => ("swept_patch_" ++ toString ne,
          SweptPatchfromEdges (S.map (edgeOf ne)))) ++ [("swept_patch_end_0", F0), ("swept_patch_end_1", F1)] ∧
        M.tris = ((((List.range 4).map fun ne => (ns, sweptGrid S ns ne)) ++
          [(nf, fun (i j : ℕ) => okv (F0 ((i : ℝ) / nf) ((j : ℝ) / nf))),
           (nf, fun (i j : ℕ) => okv (F1 ((i : ℝ) / nf) ((j : ℝ) / nf)))]).map
          fun P => gridMesh MeshArith.real false P.1 P.1 P.2).flatten := by
  have hfm : first ∈ S := List.mem_of_getElem? hf
  have hlm : last ∈ S := List.mem_of_getElem? hl
  have h4 : first.length = 4 := hlen _ hfm
  have hg : SweptPatch.getIdx S 0 = .ok first := by rw [getIdx_ok]; exact hf
  refine ⟨Swept.comp S 4 true res name, ?_, ?_⟩
  · have hex : ∃ c, Swept.init S true res name = .ok c := by
      rw [C58_accepts_iff]
      refine ⟨first, hf, fun cs hcs => ⟨by rw [hlen cs hcs, h4], ?_⟩, fun _ => ⟨h4, ?_⟩⟩
      · intro i e e' he he'
        obtain ⟨p, hp⟩ := htot cs hcs e (List.mem_of_getElem? he) 1 (by norm_num) le_rfl
        refine ⟨p, p, hp, by rw [← hcl cs hcs i e e' he he', hp], ?_⟩
        norm_num
      · intro d hd
        rcases hres with ⟨rfl, _⟩ | ⟨d', m, rfl, -, r1, r2, r3, r4⟩
        · cases hd
        · cases hd
          exact ⟨nf, m, r1, r2, r3, r4⟩
    obtain ⟨c, hc⟩ := hex
    have := hc
    unfold Swept.init at this
    rw [hg, ok_bind, bind_ok] at this
    obtain ⟨u, -, hu⟩ := this
    cases hu
    rw [h4] at hc
    exact hc
  · intro h id hid
    obtain ⟨F0, hF0, ht0, hb0⟩ := (end_patches S hcl htot first hfm h4 nf hnf).1 hf
    obtain ⟨F1, hF1, ht1, hb1⟩ := (end_patches S hcl htot last hlm (hlen _ hlm) nf hnf).2 hl
    have hsw : Swept.resOf res "sweep" = .ok ns := by
      rcases hres with ⟨rfl, _⟩ | ⟨d', m, rfl, r0, r1, r2, r3, r4⟩
      · rfl
      · simp [Swept.resOf, Dict.get, r0]
    have he0 : Swept.resOf res "e0" = .ok nf := by
      rcases hres with ⟨rfl, rfl⟩ | ⟨d', m, rfl, r0, r1, r2, r3, r4⟩
      · rfl
      · simp [Swept.resOf, Dict.get, r1]
    obtain ⟨m, he1, he2, he3⟩ : ∃ m, Swept.resOf res "e1" = .ok m ∧ Swept.resOf res "e2" = .ok nf ∧
        Swept.resOf res "e3" = .ok m := by
      rcases hres with ⟨rfl, rfl⟩ | ⟨d', m, rfl, r0, r1, r2, r3, r4⟩
      · exact ⟨_, rfl, rfl, rfl⟩
      · exact ⟨m, by simp [Swept.resOf, Dict.get, r3], by simp [Swept.resOf, Dict.get, r2], by simp [Swept.resOf, Dict.get, r4]⟩
    have hedges := runSteps_edges S res (fun ne => SweptPatchfromEdges (S.map (edgeOf ne))) ns
      (fun ne => if ne % 2 = 0 then nf else m) (List.range 4)
      (fun ne hne => edgePatch_eq S 4 hlen ne (List.mem_range.1 hne)) hsw (by
        intro ne hne
        have hlt := List.mem_range.1 hne
        interval_cases ne
        · exact he0
        · exact he1
        · exact he2
        · exact he3)
    have hends : runSteps (Swept.endSteps S res) = ⟨[("swept_patch_end_0", F0), ("swept_patch_end_1", F1)],
        [("swept_patch_end_0", nf), ("swept_patch_end_1", nf)], [("swept_patch_end_0", m), ("swept_patch_end_1", m)], none⟩ := by
      simp [Swept.endSteps, hF0, hF1, he0, he1, runSteps]
    have hsteps : runSteps (Swept.steps S 4 true res) = ⟨((List.range 4).map fun ne => ("swept_patch_" ++ toString ne,
          SweptPatchfromEdges (S.map (edgeOf ne)))) ++ [("swept_patch_end_0", F0), ("swept_patch_end_1", F1)],
        ((List.range 4).map fun ne => ("swept_patch_" ++ toString ne, ns)) ++
          [("swept_patch_end_0", nf), ("swept_patch_end_1", nf)],
        ((List.range 4).map fun ne => ("swept_patch_" ++ toString ne, if ne % 2 = 0 then nf else m)) ++
          [("swept_patch_end_0", m), ("swept_patch_end_1", m)], none⟩ := by
      unfold Swept.steps
      simp only [if_true]
      rw [runSteps_append _ _ (by rw [hedges]), hedges, hends]
    have hnames : ((List.range 4).map fun ne => "swept_patch_" ++ toString ne) =
        ["swept_patch_0", "swept_patch_1", "swept_patch_2", "swept_patch_3"] := by decide
    set N : String → ℕ := fun k => if k = "swept_patch_end_0" ∨ k = "swept_patch_end_1" then nf else ns with hN
    have hNs : ∀ ne < 4, N ("swept_patch_" ++ toString ne) = ns := by
      intro ne hne
      have : "swept_patch_" ++ toString ne ∈ (List.range 4).map fun ne => "swept_patch_" ++ toString ne :=
        List.mem_map.2 ⟨ne, List.mem_range.2 hne, rfl⟩
      rw [hnames] at this
      simp only [List.mem_cons, List.not_mem_nil, or_false] at this
      rcases this with e | e | e | e <;> rw [e] <;> simp [hN]
    have hN0 : N "swept_patch_end_0" = nf := by simp [hN]
    have hN1 : N "swept_patch_end_1" = nf := by simp [hN]
    obtain ⟨h', M, c', hgen, hpat, hM, ht⟩ := generated_mesh_res h id (fun res => runSteps (Swept.steps S 4 true res))
      (by rw [hid]; rfl) N res (by rw [hid]; rfl) (by rw [hid]; rfl) (by rw [hid]; rfl) (by rw [hid]; rfl) (by rw [hid]; rfl)
      (by rw [hid]; rfl) (by rw [hsteps])
      (by
        rw [hsteps]
        simp only [List.map_append, List.map_map, Function.comp_def, hnames]
        simp)
      (by rw [hsteps]; simp)
      (by
        intro e he
        simp only [hN]
        split_ifs <;> assumption)
      (by
        rcases hres with ⟨rfl, rfl⟩ | ⟨d', m, rfl, r0, r1, r2, r3, r4⟩
        · left
          have : ∀ s, N s = nf := by intro s; simp [hN]
          exact ⟨by rw [this], fun s => by rw [this, this]⟩
        · right
          refine ⟨⟨d', rfl⟩, ?_, ?_⟩
          · rw [hsteps]
            simp only [List.map_append, List.map_map, Function.comp_def, hnames]
            simp
          · rw [hsteps]
            intro e he
            simp only [List.mem_append, List.mem_map, List.mem_cons, List.not_mem_nil, or_false] at he ⊢
            rcases he with ⟨ne, hne, rfl⟩ | rfl | rfl
            · left
              exact ⟨ne, hne, by rw [hNs ne (List.mem_range.1 hne)]⟩
            · right; left; rw [hN0]
            · right; right; rw [hN1])
      (((List.range 4).map fun ne => (ns, sweptGrid S ns ne)) ++
        [(nf, fun (i j : ℕ) => okv (F0 ((i : ℝ) / nf) ((j : ℝ) / nf))), (nf, fun (i j : ℕ) => okv (F1 ((i : ℝ) / nf) ((j : ℝ) / nf)))])
      (by
        rw [hsteps]
        refine List.rel_append (R := _) ?_ ?_
        · rw [List.forall₂_map_right_iff, List.forall₂_map_left_iff, List.forall₂_same]
          intro ne hne
          have hlt := List.mem_range.1 hne
          rw [hNs ne hlt]
          exact ⟨rfl, fun i hi j hj => sweptGrid_eq S 4 hlen h2 htot ns hns ne hlt i j hi hj⟩
        · refine .cons ⟨hN0.symm, ?_⟩ (.cons ⟨hN1.symm, ?_⟩ .nil)
          · rw [hN0]
            exact fun i hi j hj => okv_eq (ht0 i hi j hj)
          · rw [hN1]
            exact fun i hi j hj => okv_eq (ht1 i hi j hj))
    refine ⟨h', M, c', hgen, hM, ?_, F0, F1, hF0, hF1, ht0, ht1, fun φ hφ => ⟨by rw [hb0 _ φ hφ, edgeSum_loop],
      by rw [hb1 _ φ hφ, edgeSum_loop]⟩, by rw [hpat, hsteps], ht⟩
    intro A _ φ hφ
    rw [ht, edgeSum_grids_res φ hφ, List.map_append, List.map_map, List.sum_append]
    simp only [Function.comp_def, List.map_cons, List.map_nil, List.sum_cons, List.sum_nil]
    rw [sides_sum φ S 4 hlen h2 hcl ns hns first last hf hl, hb0 _ φ hφ, hb1 _ φ hφ, edgeSum_loop, edgeSum_loop, edgeSum_loop,
      edgeSum_loop]
    abel

/-- C59: closed-ended swept components are watertight: for at least two exactly closed cross sections of four edges that
evaluate on `[0,1]`, and any integer resolution at least 1, the component can be constructed, generated and meshed, and the
mesh is closed and consistently oriented.  The same for a resolution dictionary with equal `sweep` and `e0` entries. -/
theorem C59_watertight (S : List (List PathObj)) (h2 : 2 ≤ S.length) (hlen : ∀ cs ∈ S, cs.length = 4) (htot : EdgesTotal S)
    (hcl : ExactlyClosed S) (res : Reso) (n : ℕ) (hres : SweptRes res n n) (hn : 1 ≤ n) (name : Option String) :
    ∃ c, Swept.init S true res name = .ok c ∧ ∀ (h : Heap) (id : ℕ), h id = c →
    ∃ h' M c', generatePatches h id = (.ok (), h') ∧ (h' id).mesh = (.ok M, c') ∧ Closed M.tris := by
  obtain ⟨c, hc, hh⟩ := closed_swept_mesh S S[0] S[S.length - 1] (by simp) (by simp) h2 hlen htot hcl res n n hres hn hn name
  refine ⟨c, hc, ?_⟩
  intro h id hid
  obtain ⟨h', M, c', h1, h2, h3, -⟩ := hh h id hid
  refine ⟨h', M, c', h1, h2, ?_⟩
  rw [closed_iff_edgeSum]
  intro φ hφ
  rw [h3 _ φ hφ]
  ring

/-! ## A box -/

/-- The unit square at height `z` as a cross section. -/
noncomputable def squareSection (z : ℝ) : List PathObj :=
  [Line ⟨0, 0, z⟩ ⟨1, 0, z⟩, Line ⟨1, 0, z⟩ ⟨1, 1, z⟩, Line ⟨1, 1, z⟩ ⟨0, 1, z⟩, Line ⟨0, 1, z⟩ ⟨0, 0, z⟩]

theorem squareSections (S : List (List PathObj)) (h : ∀ cs ∈ S, ∃ z, cs = squareSection z) :
    (∀ cs ∈ S, cs.length = 4) ∧ EdgesTotal S ∧ ExactlyClosed S := by
  refine ⟨?_, ?_, ?_⟩
  · intro cs hcs
    obtain ⟨z, rfl⟩ := h cs hcs
    rfl
  · intro cs hcs e he t _ _
    obtain ⟨z, rfl⟩ := h cs hcs
    simp only [squareSection, List.mem_cons, List.not_mem_nil, or_false] at he
    rcases he with rfl | rfl | rfl | rfl <;> exact ⟨_, rfl⟩
  · intro cs hcs i e e' he he'
    obtain ⟨z, rfl⟩ := h cs hcs
    have hi : i < 4 := (List.getElem?_eq_some_iff.1 he).1
    interval_cases i <;> simp [squareSection] at he he' <;> subst he <;> subst he' <;>
      simp only [Line, lineAt, Except.ok.injEq] <;> ext <;> simp

/-- A box swept from three squares is watertight. -/
example : ∃ c, Swept.init [squareSection 0, squareSection 1, squareSection 3] true (.int 5) none = .ok c ∧
    ∀ (h : Heap) (id : ℕ), h id = c →
    ∃ h' M c', generatePatches h id = (.ok (), h') ∧ (h' id).mesh = (.ok M, c') ∧ Closed M.tris := by
  obtain ⟨h1, h2, h3⟩ := squareSections [squareSection 0, squareSection 1, squareSection 3] (by simp)
  exact C59_watertight _ (by simp) h1 h2 h3 _ 5 (Or.inl ⟨rfl, rfl⟩) (by norm_num) none

/-- The hypotheses of the open case also hold for the box. -/
example : ∃ c, Swept.init [squareSection 0, squareSection 1] false (.int 2) none = .ok c := by
  obtain ⟨h1, h2, h3⟩ := squareSections [squareSection 0, squareSection 1] (by simp)
  obtain ⟨c, hc, -⟩ := C94_open_boundary [squareSection 0, squareSection 1] (squareSection 0) (squareSection 1) rfl rfl (by simp)
    (by intro cs hcs; rw [h1 cs hcs]; rfl) (by simp [squareSection]) h2 h3 2 (by norm_num) none
  exact ⟨c, hc⟩

/-- A section with a gap of 1/2 is rejected, and so is a triangle with closed ends. -/
example : (¬ ∃ c, Swept.init [[Line ⟨0, 0, 0⟩ ⟨1, 0, 0⟩, Line ⟨1, 0, 0⟩ ⟨0, 1 / 2, 0⟩]] false (.int 1) none = .ok c) ∧
    (¬ ∃ c, Swept.init [[Line ⟨0, 0, 0⟩ ⟨1, 0, 0⟩, Line ⟨1, 0, 0⟩ ⟨0, 1, 0⟩, Line ⟨0, 1, 0⟩ ⟨0, 0, 0⟩]] true (.int 1) none = .ok c) := by
  constructor
  · rw [C58_accepts_iff]
    rintro ⟨first, -, h, -⟩
    obtain ⟨-, hc⟩ := h _ (List.mem_cons_self)
    obtain ⟨p, q, h1, h2, -, h3, -⟩ := hc 1 _ _ rfl rfl
    simp only [Line, lineAt, Except.ok.injEq] at h1 h2
    subst h1 h2
    norm_num at h3
  · rw [C58_accepts_iff]
    rintro ⟨first, hf, -, h⟩
    cases hf
    have := (h rfl).1
    simp at this

/-- An antisymmetric weight that vanishes on straight steps between corners but sees midpoints. -/
noncomputable def midWeight (u v : V) : ℝ :=
  (u.x ^ 2 * v.x - u.x * v.x ^ 2) * ((1 + u.y + 2 * u.z) * (1 + v.y + 2 * v.z))

/-- C95: with a resolution dictionary, which the constructor accepts, watertightness fails: the side patches use the `sweep`
resolution along the section edges and the end patches the `e0` resolution.  Witness: the unit box with one cell along the
sweep and two cells along every section edge. -/
theorem C95_dict_violated : ∃ (S : List (List PathObj)) (d : Dict String ℕ) (c : Comp),
    2 ≤ S.length ∧ (∀ cs ∈ S, cs.length = 4) ∧ EdgesTotal S ∧ ExactlyClosed S ∧
    Swept.init S true (.dict d) none = .ok c ∧ ∀ (h : Heap) (id : ℕ), h id = c →
    ∃ h' M c', generatePatches h id = (.ok (), h') ∧ (h' id).mesh = (.ok M, c') ∧ ¬ Closed M.tris := by
  obtain ⟨h1, h2, h3⟩ := squareSections [squareSection 0, squareSection 1] (by simp)
  obtain ⟨c, hc, hh⟩ := closed_swept_mesh [squareSection 0, squareSection 1] (squareSection 0) (squareSection 1) rfl rfl (by simp)
    h1 h2 h3 (.dict [("sweep", 1), ("e0", 2), ("e1", 2), ("e2", 2), ("e3", 2)]) 1 2
    (Or.inr ⟨_, 2, rfl, rfl, rfl, rfl, rfl, rfl⟩) (by norm_num) (by norm_num) none
  refine ⟨_, _, c, by simp, h1, h2, h3, hc, ?_⟩
  intro h id hid
  obtain ⟨h', M, c', g1, g2, g3, -⟩ := hh h id hid
  refine ⟨h', M, c', g1, g2, ?_⟩
  intro hcl
  have hanti : Anti midWeight := by
    intro a b
    unfold midWeight
    ring
  have h0 := edgeSum_eq_zero_of_balanced midWeight hanti (fun a ha => by linarith) _ hcl
  rw [g3 ℝ midWeight hanti, edgeSum_loop, edgeSum_loop, edgeSum_loop, edgeSum_loop] at h0
  simp only [Finset.sum_range_succ, Finset.sum_range_zero, pathSum, edgePts, edgeOf, squareSection, List.getD_cons_zero,
    List.getD_cons_succ, Line, lineAt, okv, midWeight] at h0
  norm_num at h0

/-- C95 as far as it holds: a dictionary with equal `sweep` and `e0` entries, for which `C59_watertight` applies.  Missing:
dictionaries with different entries, for which it fails. -/
theorem C95_partial (S : List (List PathObj)) (h2 : 2 ≤ S.length) (hlen : ∀ cs ∈ S, cs.length = 4) (htot : EdgesTotal S)
    (hcl : ExactlyClosed S) (d : Dict String ℕ) (n m : ℕ) (hn : 1 ≤ n) (h0 : d.get? "sweep" = some n)
    (h1 : d.get? "e0" = some n) (h3 : d.get? "e2" = some n) (h4 : d.get? "e1" = some m) (h5 : d.get? "e3" = some m)
    (name : Option String) :
    ∃ c, Swept.init S true (.dict d) name = .ok c ∧ ∀ (h : Heap) (id : ℕ), h id = c →
    ∃ h' M c', generatePatches h id = (.ok (), h') ∧ (h' id).mesh = (.ok M, c') ∧ Closed M.tris :=
  C59_watertight S h2 hlen htot hcl _ n (Or.inr ⟨d, m, rfl, h0, h1, h3, h4, h5⟩) hn name

end HV
