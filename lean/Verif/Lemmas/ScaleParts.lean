import Verif.Lemmas.Scale

/-!
# Wings, fins, swept and revolved bodies under a change of the unit of length
-/

namespace HV

namespace Spec

/-- Named patches measured in another unit. -/
def ItemsScaled (k : ℝ) : List (String × Surf) → List (String × Surf) → Prop :=
  List.Forall₂ fun e e' => e'.1 = e.1 ∧ SurfScaled k e.2 e'.2

/-- What `generate_patches` makes, measured in another unit: if the first run ends without an exception, so does the second. -/
def GenOutScaled (k : ℝ) (o o' : GenOut) : Prop :=
  o.err = none → o'.err = none ∧ ItemsScaled k o.items o'.items ∧ o'.resR = o.resR ∧ o'.resS = o.resS

/-- The constructor arguments of a wing measured in another unit: all points, lengths and functions that return lengths are converted,
angles, parameters of paths and options are the same.  A leading edge width function is given unless the leading edge does not
need one. -/
structure WingScaled (k : ℝ) (a b : Wing.Args) : Prop where
  A0 : PointScaled k a.A0 b.A0
  A1 : PointScaled k a.A1 b.A1
  TT : PointScaled k a.TT b.TT
  B0 : PointScaled k a.B0 b.B0
  line : PathScaled k a.line b.line
  lineType : b.lineType = a.lineType
  t_B1 : b.t_B1 = a.t_B1
  t_B2 : b.t_B2 = a.t_B2
  top_tf : OffFnScaled k a.top_tf b.top_tf
  bot_tf : OffFnScaled k a.bot_tf b.bot_tf
  LE_wf : (∃ f g, a.LE_wf = some f ∧ b.LE_wf = some g ∧ WidthScaled k f g) ∨ (a.LE_wf = none ∧ b.LE_wf = none ∧ a.LE_type ≠ "custom")
  LE_type : b.LE_type = a.LE_type
  tail_option : b.tail_option = a.tail_option
  flap_length : LengthScaled k a.flap_length b.flap_length
  flap_angle : b.flap_angle = a.flap_angle
  close_wing : b.close_wing = a.close_wing

/-- The constructor arguments of a fin measured in another unit. -/
structure FinScaled (k : ℝ) (a b : Fin.Args) : Prop where
  p0 : PointScaled k a.p0 b.p0
  p1 : PointScaled k a.p1 b.p1
  p2 : PointScaled k a.p2 b.p2
  p3 : PointScaled k a.p3 b.p3
  fin_thickness : LengthScaled k a.fin_thickness b.fin_thickness
  fin_angle : b.fin_angle = a.fin_angle
  top_tf : OffFnScaled k a.top_tf b.top_tf
  bot_tf : OffFnScaled k a.bot_tf b.bot_tf
  LE_wf : WidthScaled k a.LE_wf b.LE_wf
  rudder_type : b.rudder_type = a.rudder_type
  rudder_length : LengthScaled k a.rudder_length b.rudder_length
  rudder_angle : b.rudder_angle = a.rudder_angle
  pivot_angle : b.pivot_angle = a.pivot_angle
  pivot_point : PointScaled k a.pivot_point b.pivot_point
  offset_func : (∃ f g, a.offset_func = some f ∧ b.offset_func = some g ∧ OffFnScaled k f g) ∨
    (a.offset_func = none ∧ b.offset_func = none)

/-- Cross sections measured in another unit. -/
def SectionsScaled (k : ℝ) : List (List PathObj) → List (List PathObj) → Prop := List.Forall₂ (List.Forall₂ (PathScaled k))

/-- The edges of a cross section meet exactly: each starts where the one before it ends. -/
def Joined (cs : List PathObj) : Prop := ∀ i e d, cs[i]? = some e → cs[(i + 1) % cs.length]? = some d → e.call 1 = d.call 0

end Spec

open Spec

section
variable {k : ℝ}

theorem runStages_scaled {l l' : List (Res (List (String × Surf)))} (h : List.Forall₂ (Follows (ItemsScaled k)) l l') :
    GenOutScaled k (runStages l) (runStages l') := by
  induction h with
  | nil => exact fun _ => ⟨rfl, .nil, rfl, rfl⟩
  | @cons a b l l' h _ ih =>
    intro he
    cases a with
    | error e => simp [runStages] at he
    | ok x =>
      obtain ⟨y, rfl, hy⟩ := h x rfl
      obtain ⟨h1, h2, h3, h4⟩ := ih he
      exact ⟨h1, List.rel_append hy h2, h3, h4⟩

/-- Assignments that agree except for the unit of the patches. -/
inductive StepScaled (k : ℝ) : GenStep → GenStep → Prop
  | patch {n : String} {v w : Res Surf} : Follows (SurfScaled k) v w → StepScaled k (.patch n v) (.patch n w)
  | resR {n : String} {v : Res ℕ} : StepScaled k (.resR n v) (.resR n v)
  | resS {n : String} {v : Res ℕ} : StepScaled k (.resS n v) (.resS n v)

theorem runSteps_scaled {l l' : List GenStep} (h : List.Forall₂ (StepScaled k) l l') : GenOutScaled k (runSteps l) (runSteps l') := by
  induction h with
  | nil => exact fun _ => ⟨rfl, .nil, rfl, rfl⟩
  | @cons a b l l' h _ ih =>
    intro he
    cases h with
    | @patch n v w h =>
      cases v with
      | error e => simp [runSteps] at he
      | ok x =>
        obtain ⟨y, rfl, hy⟩ := h x rfl
        obtain ⟨h1, h2, h3, h4⟩ := ih he
        exact ⟨h1, .cons ⟨rfl, hy⟩ h2, h3, h4⟩
    | @resR n v =>
      cases v with
      | error e => simp [runSteps] at he
      | ok x =>
        obtain ⟨h1, h2, h3, h4⟩ := ih he
        exact ⟨h1, h2, congrArg ((n, x) :: ·) h3, h4⟩
    | @resS n v =>
      cases v with
      | error e => simp [runSteps] at he
      | ok x =>
        obtain ⟨h1, h2, h3, h4⟩ := ih he
        exact ⟨h1, h2, h3, congrArg ((n, x) :: ·) h4⟩

/-! ## Wings -/

/-- The attributes of a wing measured in another unit. -/
structure WStateScaled (k : ℝ) (w w' : Wing.State) : Prop where
  args : WingScaled k w.args w'.args
  LE_wf : WidthScaled k (widthFn w.LE_wf) (widthFn w'.LE_wf)
  LE_TYPE : w'.LE_TYPE = w.LE_TYPE
  t_B1 : w'.t_B1 = w.t_B1
  t_B2 : w'.t_B2 = w.t_B2

theorem wing_init_scaled {find : (ℝ → Res ℝ) → Res ℝ} (hfind : FindScaled k find) {a b : Wing.Args} (h : WingScaled k a b) :
    Follows (WStateScaled k) (Wing.init find a) (Wing.init find b) := by
  unfold Wing.init
  have hB1 : Follows Eq (Wing.breakB1 find a) (Wing.breakB1 find b) := by
    unfold Wing.breakB1
    rw [h.t_B1]
    split
    · apply hfind
      intro t
      refine follows_bind (h.line.call t) fun x x' hx => follows_pure ?_
      rw [PointScaled] at hx
      subst hx
      have := h.A1
      rw [PointScaled] at this
      rw [this, LengthScaled]
      simp; ring
    · exact follows_refl _
  refine follows_bind hB1 fun t t' ht => follows_pure ?_
  subst ht
  refine ⟨h, ?_, by rw [h.LE_type], rfl, ?_⟩
  · rcases h.LE_wf with ⟨f, g, e1, e2, hf⟩ | ⟨e1, e2, e3⟩
    · simp [e1, e2, widthFn]
      exact hf
    · simp [e1, e2, e3, h.LE_type, widthFn]
      intro t
      exact follows_error
  · unfold Wing.breakB2
    rw [h.t_B1, h.t_B2]

theorem wing_planform_scaled (hk : 0 < k) (hk1 : k ≤ 1) {w w' : Wing.State} (h : WStateScaled k w w') :
    Follows (fun x y => SurfScaled k x.1 y.1 ∧ SurfScaled k x.2.1 y.2.1 ∧ SurfScaled k x.2.2.1 y.2.2.1 ∧ SurfScaled k x.2.2.2 y.2.2.2)
      (Wing.planform w) (Wing.planform w') := by
  have ha := h.args
  unfold Wing.planform
  simp only [ha.lineType, h.t_B1, h.t_B2]
  split
  · exact follows_throw
  have hl := ha.line
  have sub := fun t0 t1 => subRanged_scaled hl t0 t1
  refine follows_bind (hl.call _) fun B B' hB => follows_bind (coons_scaled hk hk1 (sub _ _) (line_scaled hk ha.A1 hB) (line_scaled hk ha.A0 ha.A1)
    (line_scaled hk ha.A0 ha.B0)) fun p0 p0' h0 => follows_bind (follows_refl _) fun t t' ht => ?_
  subst ht
  refine follows_bind (coons_scaled hk hk1 (sub _ _) (sub _ _) (line_scaled hk ha.A1 ha.TT) (line_scaled hk ha.A1 hB)) fun p1 p1' h1 =>
    follows_bind (coons_scaled hk hk1 (subRanged_scaled (sub _ _) _ _) (line_scaled hk ha.A0 ha.B0) (line_scaled hk ha.A1 ha.A0)
      (line_scaled hk ha.A1 hB)) fun p2 p2' h2 =>
    follows_bind (coons_scaled hk hk1 (subRanged_scaled (sub _ _) _ _) (line_scaled hk ha.A1 hB) (line_scaled hk ha.TT ha.A1)
      (sub _ _)) fun p3 p3' h3 => follows_pure ⟨h0, h1, h2, h3⟩

theorem wing_skins_scaled (hk : 0 < k) (hk1 : k ≤ 1) {w w' : Wing.State} (h : WStateScaled k w w') :
    Follows (ItemsScaled k) (Wing.skins w) (Wing.skins w') := by
  unfold Wing.skins
  refine follows_bind (wing_planform_scaled hk hk1 h) fun x y hxy => ?_
  obtain ⟨x1, x2, x3, x4⟩ := x
  obtain ⟨y1, y2, y3, y4⟩ := y
  obtain ⟨h1, h2, h3, h4⟩ := hxy
  exact follows_pure (.cons ⟨rfl, offsetPatch_scaled h3 h.args.top_tf⟩ (.cons ⟨rfl, offsetPatch_scaled h4 h.args.top_tf⟩
    (.cons ⟨rfl, offsetPatch_scaled h1 h.args.bot_tf⟩ (.cons ⟨rfl, offsetPatch_scaled h2 h.args.bot_tf⟩ .nil))))

theorem wing_topEdge_scaled (hk : 0 < k) {w w' : Wing.State} (h : WStateScaled k w w') : PathScaled k (Wing.topEdge w) (Wing.topEdge w') :=
  offsetPath_scaled hk h.args.line h.args.top_tf

theorem wing_botEdge_scaled (hk : 0 < k) {w w' : Wing.State} (h : WStateScaled k w w') : PathScaled k (Wing.botEdge w) (Wing.botEdge w') :=
  offsetPath_scaled hk h.args.line h.args.bot_tf

theorem wing_leadingEdge_scaled (hk : 0 < k) (ptan : ℝ → ℝ) {w w' : Wing.State} (h : WStateScaled k w w') :
    Follows (ItemsScaled k) (Wing.leadingEdge ptan w) (Wing.leadingEdge ptan w') := by
  have ht := wing_topEdge_scaled hk h
  have hb := wing_botEdge_scaled hk h
  have hm := meanPath_scaled hk ht hb
  unfold Wing.leadingEdge
  rw [h.t_B2, h.LE_TYPE]
  refine follows_bind (follows_refl _) fun t t' e => follows_pure ?_
  subst e
  split
  · unfold Wing.flatLE
    rw [h.t_B1]
    exact .cons ⟨rfl, flatLeadingEdge_scaled ht hb _ _⟩ (.cons ⟨rfl, flatLeadingEdge_scaled ht hb _ _⟩
      (.cons ⟨rfl, flatLeadingEdge_scaled ht hb _ _⟩ .nil))
  · unfold Wing.ellipticLE
    rw [h.t_B1]
    have q := fun t0 t1 => meanLeadingEdge_scaled hk ptan hm ht h.LE_wf t0 t1 "top"
    have q' := fun t0 t1 => meanLeadingEdge_scaled hk ptan hm hb h.LE_wf t0 t1 "bot"
    exact .cons ⟨rfl, q _ _⟩ (.cons ⟨rfl, q _ _⟩ (.cons ⟨rfl, q _ _⟩ (.cons ⟨rfl, q' _ _⟩ (.cons ⟨rfl, q' _ _⟩ (.cons ⟨rfl, q' _ _⟩ .nil)))))

theorem wing_teTop_scaled (hk : 0 < k) {w w' : Wing.State} (h : WStateScaled k w w') : PathScaled k (Wing.teTop w) (Wing.teTop w') :=
  trailingEdgePath_scaled hk h.args.A0 h.args.B0 h.args.top_tf

theorem wing_teBot_scaled (hk : 0 < k) {w w' : Wing.State} (h : WStateScaled k w w') : PathScaled k (Wing.teBot w) (Wing.teBot w') :=
  trailingEdgePath_scaled hk h.args.A0 h.args.B0 h.args.bot_tf

theorem wing_teMean_scaled (hk : 0 < k) {w w' : Wing.State} (h : WStateScaled k w w') : PathScaled k (Wing.teMean w) (Wing.teMean w') :=
  meanPath_scaled hk (wing_teTop_scaled hk h) (wing_teBot_scaled hk h)

theorem wing_flap_scaled (hk : 0 < k) (hk1 : k ≤ 1) {w w' : Wing.State} (h : WStateScaled k w w') :
    Follows (ItemsScaled k) (Wing.flap w) (Wing.flap w') := by
  unfold Wing.flap
  simp only [h.args.tail_option, h.args.flap_angle]
  split
  · exact follows_throw
  exact follows_bind (meanTrailingEdgePatch_scaled hk hk1 (wing_teMean_scaled hk h) (wing_teTop_scaled hk h) h.args.flap_length _ _)
    fun _ _ h1 => follows_bind (meanTrailingEdgePatch_scaled hk hk1 (wing_teMean_scaled hk h) (wing_teBot_scaled hk h)
      h.args.flap_length _ _) fun _ _ h2 => follows_pure (.cons ⟨rfl, h1⟩ (.cons ⟨rfl, h2⟩ .nil))

theorem wing_tipEdges_scaled (hk : 0 < k) (ptan : ℝ → ℝ) {w w' : Wing.State} (h : WStateScaled k w w') {m t b m' t' b' : V}
    (hm : PointScaled k m m') (ht : PointScaled k t t') (hb : PointScaled k b b') :
    Follows (fun x y => PathScaled k x.1 y.1 ∧ PathScaled k x.2 y.2) (Wing.tipEdges ptan w m t b) (Wing.tipEdges ptan w' m' t' b') := by
  unfold Wing.tipEdges
  rw [h.LE_TYPE]
  split
  · exact follows_ok ⟨line_scaled hk hm hb, line_scaled hk ht hm⟩
  have e1 : m'.z - t'.z = (m.z - t.z) * k := by rw [show m' = _ from hm, show t' = _ from ht]; simp; ring
  have e2 : m'.z - b'.z = (m.z - b.z) * k := by rw [show m' = _ from hm, show b' = _ from hb]; simp; ring
  simp only [e1, e2, mul_eq_zero, hk.ne', or_false]
  split
  · exact follows_throw
  refine follows_bind (h.LE_wf 0) fun x x' hx => follows_bind (h.LE_wf 0) fun y y' hy =>
    follows_bind (arcLength_scaled hk (elipse_scaled hk ptan hm rfl hx _) _) fun p p' hp =>
    follows_bind (arcLength_scaled hk (elipse_scaled hk ptan hm rfl hy _) _) fun q q' hq => follows_pure ⟨hq, hp⟩

theorem wing_tele_scaled (hk : 0 < k) (hk1 : k ≤ 1) (ptan : ℝ → ℝ) {w w' : Wing.State} (h : WStateScaled k w w') :
    Follows (ItemsScaled k) (Wing.tele ptan w) (Wing.tele ptan w') := by
  unfold Wing.tele
  refine follows_bind ((wing_teMean_scaled hk h).call 1) fun m m' hm => follows_bind ((wing_teTop_scaled hk h).call 1) fun t t' ht =>
    follows_bind ((wing_teBot_scaled hk h).call 1) fun b b' hb => follows_bind (wing_tipEdges_scaled hk ptan h hm ht hb) fun x y hxy => ?_
  obtain ⟨x1, x2⟩ := x
  obtain ⟨y1, y2⟩ := y
  obtain ⟨h1, h2⟩ := hxy
  have hl := h.args.flap_length
  rw [LengthScaled] at hl
  rw [PointScaled] at hm ht hb
  subst hm ht hb
  simp only [h.args.flap_angle, hl] at h1 h2 ⊢
  have htip : PointScaled k ⟨m.x - w.args.flap_length * Real.cos w.args.flap_angle, m.y, m.z + w.args.flap_length * Real.sin w.args.flap_angle⟩
      ⟨(m * k).x - w.args.flap_length * k * Real.cos w.args.flap_angle, (m * k).y, (m * k).z + w.args.flap_length * k * Real.sin w.args.flap_angle⟩ :=
    scaled_mk (by simp; ring) (by simp) (by simp; ring)
  exact follows_bind (coons_scaled hk hk1 h1 (line_scaled hk htip (scaled_mk (by simp) (by simp) (by simp)))
    (line_scaled hk (scaled_mk (by simp) (by simp) (by simp)) htip) h2) fun _ _ hp => follows_pure (.cons ⟨rfl, hp⟩ .nil)

theorem wing_closeWing_scaled (hk : 0 < k) (hk1 : k ≤ 1) (ptan : ℝ → ℝ) {w w' : Wing.State} (h : WStateScaled k w w') {S T S' T' : Surf}
    (hS : SurfScaled k S S') (hT : SurfScaled k T T') :
    Follows (ItemsScaled k) (Wing.closeWing ptan w S T) (Wing.closeWing ptan w' S' T') := by
  have ha := h.args
  have hTT := ha.TT
  have hot := ha.top_tf w.args.TT.x w.args.TT.y w.args.TT.z
  have hob := ha.bot_tf w.args.TT.x w.args.TT.y w.args.TT.z
  unfold Wing.closeWing
  simp only [show w'.args.TT = w.args.TT * k from hTT, Vec.mul_x, Vec.mul_y, Vec.mul_z]
  rw [show w'.args.TT = w.args.TT * k from hTT] at hTT
  have ln := fun {p q p' q' : V} => line_scaled (k := k) hk (p := p) (q := q) (p' := p') (q' := q')
  refine follows_bind hot fun ot ot' h1 => follows_bind hob fun ob ob' h2 => follows_bind ((wing_teTop_scaled hk h).call 0) fun t0 t0' h3 =>
    follows_bind ((wing_teBot_scaled hk h).call 0) fun b0 b0' h4 => follows_bind ((wing_teMean_scaled hk h).call 0) fun m0 m0' h5 =>
    follows_bind (hS 0 0) fun tA tA' h6 => follows_bind (hT 1 0) fun bA bA' h7 => ?_
  have htop := scaled_add hTT h1
  have hbot := scaled_add hTT h2
  have hmid := scaled_mul (scaled_add htop hbot) (0.5 : ℝ)
  have hmm : PointScaled k ⟨bA.x, bA.y, (bA.z + tA.z) / 2⟩ ⟨bA'.x, bA'.y, (bA'.z + tA'.z) / 2⟩ := by
    rw [PointScaled] at h6 h7
    subst h6 h7
    exact scaled_mk (by simp) (by simp) (by simp; ring)
  have hzt : ∀ {p q p' q' : V}, PointScaled k p p' → PointScaled k q q' → p'.z - q'.z = (p.z - q.z) * k := by
    intro p q p' q' hp hq
    rw [PointScaled] at hp hq
    subst hp hq
    simp; ring
  refine follows_bind (coons_scaled hk hk1 (ln h5 hmm) (ln h6 hmm) (ln h3 h6) (ln h3 h5)) fun p1 p1' g1 =>
    follows_bind (coons_scaled hk hk1 (ln hmm hmid) (ln htop hmid) (ln h6 htop) (ln h6 hmm)) fun p2 p2' g2 =>
    follows_bind (coons_scaled hk hk1 (ln h4 h7) (ln hmm h7) (ln h5 hmm) (ln h5 h4)) fun p3 p3' g3 =>
    follows_bind (coons_scaled hk hk1 (ln h7 hbot) (ln hmid hbot) (ln hmm hmid) (ln hmm h7)) fun p4 p4' g4 =>
    follows_bind (h.LE_wf 1) fun x x' hx => follows_bind (h.LE_wf 1) fun y y' hy =>
    follows_bind (arcLength_scaled hk (elipse_scaled hk ptan hmid (hzt hmid htop) hx _) _) fun e e' he =>
    follows_bind (arcLength_scaled hk (elipse_scaled hk ptan hmid (hzt hmid hbot) hy _) _) fun f f' hf =>
    follows_bind (coons_scaled hk hk1 (subRanged_scaled hf _ _) he (ln hmid htop) (ln hmid hbot)) fun p5 p5' g5 =>
    follows_pure (.cons ⟨rfl, g1⟩ (.cons ⟨rfl, g2⟩ (.cons ⟨rfl, g3⟩ (.cons ⟨rfl, g4⟩ (.cons ⟨rfl, rotated_scaled g5 _ _ hmid⟩ .nil)))))

theorem wing_closeFlap_scaled (hk : 0 < k) (hk1 : k ≤ 1) {w w' : Wing.State} (h : WStateScaled k w w') :
    Follows (ItemsScaled k) (Wing.closeFlap w) (Wing.closeFlap w') := by
  unfold Wing.closeFlap
  have ln := fun {p q p' q' : V} => line_scaled (k := k) hk (p := p) (q := q) (p' := p') (q' := q')
  refine follows_bind ((wing_teMean_scaled hk h).call 0) fun m m' hm => follows_bind ((wing_teTop_scaled hk h).call 0) fun t t' ht =>
    follows_bind ((wing_teBot_scaled hk h).call 0) fun b b' hb => ?_
  have hl := h.args.flap_length
  rw [LengthScaled] at hl
  have htip : PointScaled k ⟨m.x - w.args.flap_length * Real.cos w.args.flap_angle, m.y, m.z + w.args.flap_length * Real.sin w.args.flap_angle⟩
      ⟨m'.x - w'.args.flap_length * Real.cos w'.args.flap_angle, m'.y, m'.z + w'.args.flap_length * Real.sin w'.args.flap_angle⟩ := by
    rw [PointScaled] at hm
    subst hm
    rw [h.args.flap_angle, hl]
    exact scaled_mk (by simp; ring) (by simp) (by simp; ring)
  exact follows_bind (coons_scaled hk hk1 (ln ht htip) (ln hb htip) (ln hm hb) (ln hm ht)) fun _ _ g => follows_pure (.cons ⟨rfl, g⟩ .nil)

theorem items_get {l l' : List (String × Surf)} (h : ItemsScaled k l l') (n : String) :
    Follows (SurfScaled k) (Dict.get l n) (Dict.get l' n) := by
  unfold Dict.get
  induction h with
  | nil => exact follows_error
  | @cons e e' l l' h _ ih =>
    obtain ⟨a, x⟩ := e
    obtain ⟨b, y⟩ := e'
    obtain ⟨h1, h2⟩ := h
    simp only at h1
    subst h1
    simp only [Dict.get?]
    by_cases hn : b = n
    · simp only [hn, if_true]
      exact follows_ok h2
    · simp only [hn, if_false]
      exact ih

theorem wing_closeFrom_scaled (hk : 0 < k) (hk1 : k ≤ 1) (ptan : ℝ → ℝ) {w w' : Wing.State} (h : WStateScaled k w w') :
    Follows (ItemsScaled k) (Wing.closeFrom ptan w) (Wing.closeFrom ptan w') :=
  follows_bind (wing_skins_scaled hk hk1 h) fun _ _ hl => follows_bind (items_get hl _) fun _ _ h1 => follows_bind (items_get hl _) fun _ _ h2 =>
    wing_closeWing_scaled hk hk1 ptan h h1 h2

theorem wing_scaled (hk : 0 < k) (hk1 : k ≤ 1) (ptan : ℝ → ℝ) {w w' : Wing.State} (h : WStateScaled k w w') :
    GenOutScaled k (runStages (Wing.stages ptan w)) (runStages (Wing.stages ptan w')) := by
  apply runStages_scaled
  unfold Wing.stages
  rw [h.args.close_wing]
  refine List.rel_append (.cons (wing_skins_scaled hk hk1 h) (.cons (wing_leadingEdge_scaled hk ptan h) (.cons (wing_flap_scaled hk hk1 h)
    (.cons (wing_tele_scaled hk hk1 ptan h) .nil)))) ?_
  split
  · exact .cons (wing_closeFrom_scaled hk hk1 ptan h) (.cons (wing_closeFlap_scaled hk hk1 h) .nil)
  · exact .nil

/-! ## Fins -/

theorem fin_half_scaled {a b : Fin.Args} (h : FinScaled k a b) : PointScaled k (Fin.half a) (Fin.half b) := by
  have := h.fin_thickness
  rw [LengthScaled] at this
  exact scaled_mk (by simp) (by simp) (by rw [this]; ring)

theorem fin_skins_scaled (hk : 0 < k) (hk1 : k ≤ 1) {a b : Fin.Args} (h : FinScaled k a b) :
    Follows (ItemsScaled k) (Fin.skins a) (Fin.skins b) := by
  have ln := fun {p q p' q' : V} => line_scaled (k := k) hk (p := p) (q := q) (p' := p') (q' := q')
  unfold Fin.skins Fin.planform
  simp only [bind_assoc, pure_eq, ok_bind]
  exact follows_bind (coons_scaled hk hk1 (ln h.p1 h.p2) (ln h.p3 h.p2) (ln h.p0 h.p3) (ln h.p0 h.p1)) fun _ _ h1 =>
    follows_bind (coons_scaled hk hk1 (ln h.p3 h.p2) (ln h.p1 h.p2) (ln h.p0 h.p1) (ln h.p0 h.p3)) fun _ _ h2 =>
    follows_ok (.cons ⟨rfl, offsetPatch_scaled h2 h.top_tf⟩ (.cons ⟨rfl, offsetPatch_scaled h1 h.bot_tf⟩ .nil))

theorem fin_leadingEdge_scaled (hk : 0 < k) {find : (ℝ → Res ℝ) → Res ℝ} (hfind : FindScaled k find) (ptan : ℝ → ℝ) {a b : Fin.Args}
    (h : FinScaled k a b) {l l' : PathObj} (hl : PathScaled k l l') :
    Follows (ItemsScaled k) (Fin.leadingEdge find ptan a l) (Fin.leadingEdge find ptan b l') := by
  have ht := offsetPath_scaled hk hl h.top_tf
  have hb := offsetPath_scaled hk hl h.bot_tf
  have hm := meanPath_scaled hk ht hb
  unfold Fin.leadingEdge
  refine follows_bind (hfind _ _ ?_) fun t t' e => follows_pure ?_
  · intro t
    refine follows_bind (hl.call t) fun x x' hx => follows_pure ?_
    rw [PointScaled] at hx
    subst hx
    have := h.p2
    rw [PointScaled] at this
    rw [this, LengthScaled]
    simp; ring
  · subst e
    exact .cons ⟨rfl, meanLeadingEdge_scaled hk ptan hm ht h.LE_wf _ _ _⟩ (.cons ⟨rfl, meanLeadingEdge_scaled hk ptan hm ht h.LE_wf _ _ _⟩
      (.cons ⟨rfl, meanLeadingEdge_scaled hk ptan hm hb h.LE_wf _ _ _⟩ (.cons ⟨rfl, meanLeadingEdge_scaled hk ptan hm hb h.LE_wf _ _ _⟩ .nil)))

theorem scaled_z {p p' : V} (h : PointScaled k p p') : p'.z = p.z * k := by rw [show p' = _ from h]; rfl
theorem scaled_y {p p' : V} (h : PointScaled k p p') : p'.y = p.y * k := by rw [show p' = _ from h]; rfl
theorem scaled_x {p p' : V} (h : PointScaled k p p') : p'.x = p.x * k := by rw [show p' = _ from h]; rfl

theorem offFn_flat {f g : OffFn} (h : OffFnScaled k f g) {p p' : V} (hp : PointScaled k p p') :
    Follows (PointScaled k) (f p.x p.y 0) (g p'.x p'.y 0) := by
  have := h p.x p.y 0
  rw [zero_mul] at this
  rw [scaled_x hp, scaled_y hp]
  exact this

theorem fin_bottom_scaled (hk : 0 < k) (hk1 : k ≤ 1) (ptan : ℝ → ℝ) {a b : Fin.Args} (h : FinScaled k a b) :
    Follows (ItemsScaled k) (Fin.bottom ptan a) (Fin.bottom ptan b) := by
  have ln := fun {p q p' q' : V} => line_scaled (k := k) hk (p := p) (q := q) (p' := p') (q' := q')
  have hh := fin_half_scaled h
  unfold Fin.bottom
  refine follows_bind (offFn_flat h.top_tf h.p3) fun tt tt' h1 => follows_bind (offFn_flat h.bot_tf h.p3) fun tb tb' h2 =>
    follows_bind (h.LE_wf 1) fun x x' hx => follows_bind (h.LE_wf 1) fun y y' hy =>
    follows_bind (arcLength_scaled hk (elipse_scaled hk ptan h.p3 (scaled_z h1) hx _) _) fun e e' he =>
    follows_bind (arcLength_scaled hk (elipse_scaled hk ptan h.p3 (scaled_z h2) hy _) _) fun f f' hf => ?_
  have p3m := scaled_sub h.p3 hh
  have p3p := scaled_add h.p3 hh
  have p0m := scaled_sub h.p0 hh
  have p0p := scaled_add h.p0 hh
  exact follows_bind (coons_scaled hk hk1 (ln h.p3 p3p) hf he (ln p3m h.p3)) fun _ _ g1 =>
    follows_bind (coons_scaled hk hk1 (ln p3m p0m) (ln h.p0 p0m) (ln h.p3 h.p0) (reversed_scaled (ln p3m h.p3))) fun _ _ g2 =>
    follows_bind (coons_scaled hk hk1 (ln h.p3 h.p0) (ln p0p h.p0) (ln p3p p0p) (reversed_scaled (ln h.p3 p3p))) fun _ _ g3 =>
    follows_pure (.cons ⟨rfl, rotated_scaled g1 _ _ h.p3⟩ (.cons ⟨rfl, g2⟩ (.cons ⟨rfl, g3⟩ .nil)))

theorem fin_sharp_scaled (hk : 0 < k) (hk1 : k ≤ 1) (ptan : ℝ → ℝ) {a b : Fin.Args} (h : FinScaled k a b) :
    Follows (ItemsScaled k) (Fin.sharpTE ptan a) (Fin.sharpTE ptan b) := by
  have ln := fun {p q p' q' : V} => line_scaled (k := k) hk (p := p) (q := q) (p' := p') (q' := q')
  have hh := fin_half_scaled h
  have hl := h.rudder_length
  unfold Fin.sharpTE
  simp only [h.rudder_angle]
  refine follows_bind (trailingEdgePatch_scaled hk hk1 h.p0 h.p1 (trailingEdgePath_scaled hk h.p0 h.p1 h.top_tf) hl _ _) fun _ _ g1 =>
    follows_bind (trailingEdgePatch_scaled hk hk1 h.p0 h.p1 (trailingEdgePath_scaled hk h.p0 h.p1 h.bot_tf) hl _ _) fun _ _ g2 =>
    follows_bind (offFn_flat h.top_tf h.p1) fun tt tt' h1 => follows_bind (offFn_flat h.bot_tf h.p1) fun tb tb' h2 =>
    follows_bind (h.LE_wf 0) fun x x' hx => follows_bind (h.LE_wf 0) fun y y' hy =>
    follows_bind (arcLength_scaled hk (elipse_scaled hk ptan h.p1 (scaled_z h1) hx _) _) fun e e' he =>
    follows_bind (arcLength_scaled hk (elipse_scaled hk ptan h.p1 (scaled_z h2) hy _) _) fun f f' hf => ?_
  rw [LengthScaled] at hl
  have tip : ∀ {p p' : V}, PointScaled k p p' → PointScaled k ⟨p.x - a.rudder_length, p.y, a.rudder_length * Real.sin a.rudder_angle⟩
      ⟨p'.x - b.rudder_length, p'.y, b.rudder_length * Real.sin a.rudder_angle⟩ := by
    intro p p' hp
    rw [PointScaled] at hp
    subst hp
    rw [hl]
    exact scaled_mk (by simp; ring) (by simp) (by ring)
  have p0m := scaled_sub h.p0 hh
  have p0p := scaled_add h.p0 hh
  exact follows_bind (coons_scaled hk hk1 hf (ln (tip h.p1) (scaled_mk (scaled_x h.p1) (scaled_y h.p1) (scaled_z h2)))
    (ln (scaled_mk (scaled_x h.p1) (scaled_y h.p1) (scaled_z h1)) (tip h.p1)) he) fun _ _ g3 =>
    follows_bind (coons_scaled hk hk1 (ln (tip h.p0) p0p) (ln h.p0 p0p) (ln p0m h.p0) (ln p0m (tip h.p0))) fun _ _ g4 =>
    follows_pure (.cons ⟨rfl, g1⟩ (.cons ⟨rfl, g2⟩ (.cons ⟨rfl, g3⟩ (.cons ⟨rfl, g4⟩ .nil))))

theorem fin_flat_scaled (hk : 0 < k) (hk1 : k ≤ 1) (ptan : ℝ → ℝ) {a b : Fin.Args} (h : FinScaled k a b) :
    Follows (ItemsScaled k) (Fin.flatTE ptan a) (Fin.flatTE ptan b) := by
  have ln := fun {p q p' q' : V} => line_scaled (k := k) hk (p := p) (q := q) (p' := p') (q' := q')
  have hh := fin_half_scaled h
  unfold Fin.flatTE
  refine follows_bind (offFn_flat h.top_tf h.p1) fun tt tt' h1 => follows_bind (offFn_flat h.bot_tf h.p1) fun tb tb' h2 =>
    follows_bind (h.LE_wf 0) fun x x' hx => follows_bind (h.LE_wf 0) fun y y' hy =>
    follows_bind (arcLength_scaled hk (elipse_scaled hk ptan h.p1 (scaled_z h1) hx _) _) fun e e' he =>
    follows_bind (arcLength_scaled hk (elipse_scaled hk ptan h.p1 (scaled_z h2) hy _) _) fun f f' hf => ?_
  have p1m := scaled_sub h.p1 hh
  have p1p := scaled_add h.p1 hh
  have p0m := scaled_sub h.p0 hh
  have p0p := scaled_add h.p0 hh
  exact follows_bind (coons_scaled hk hk1 (ln h.p1 p1m) (subRanged_scaled he _ _) (subRanged_scaled hf _ _) (ln p1p h.p1)) fun _ _ g1 =>
    follows_bind (coons_scaled hk hk1 (ln p0m p1m) (ln h.p1 p1m) (ln h.p0 h.p1) (ln h.p0 p0m)) fun _ _ g2 =>
    follows_bind (coons_scaled hk hk1 (ln h.p0 h.p1) (ln p1p h.p1) (ln p0p p1p) (ln p0p h.p0)) fun _ _ g3 =>
    follows_pure (.cons ⟨rfl, g1⟩ (.cons ⟨rfl, g2⟩ (.cons ⟨rfl, g3⟩ .nil)))

theorem fin_unplaced_scaled (hk : 0 < k) (hk1 : k ≤ 1) {find : (ℝ → Res ℝ) → Res ℝ} (hfind : FindScaled k find) (ptan : ℝ → ℝ)
    {a b : Fin.Args} (h : FinScaled k a b) : Follows (ItemsScaled k) (Fin.unplaced find ptan a) (Fin.unplaced find ptan b) := by
  have ln := fun {p q p' q' : V} => line_scaled (k := k) hk (p := p) (q := q) (p' := p') (q' := q')
  unfold Fin.unplaced
  refine follows_bind (polyline_scaled hk (.cons (ln h.p1 h.p2) (.cons (ln h.p2 h.p3) .nil))) fun _ _ hl =>
    follows_bind (fin_skins_scaled hk hk1 h) fun _ _ h1 => follows_bind (fin_leadingEdge_scaled hk hfind ptan h hl) fun _ _ h2 =>
    follows_bind (fin_bottom_scaled hk hk1 ptan h) fun _ _ h3 => follows_bind (R := ItemsScaled k) ?_ fun _ _ h4 =>
    follows_pure (List.rel_append (List.rel_append (List.rel_append h1 h2) h3) h4)
  unfold Fin.trailingEdge
  rw [h.rudder_type]
  split
  · exact fin_sharp_scaled hk hk1 ptan h
  · exact fin_flat_scaled hk hk1 ptan h

theorem fin_place_scaled {a b : Fin.Args} (h : FinScaled k a b) {S T : Surf} (hS : SurfScaled k S T) :
    SurfScaled k (Fin.place a S) (Fin.place b T) := by
  unfold Fin.place
  have h2 : SurfScaled k (RotatedPatch (RotatedPatch S a.pivot_angle "y" a.pivot_point) a.fin_angle)
      (RotatedPatch (RotatedPatch T b.pivot_angle "y" b.pivot_point) b.fin_angle) := by
    rw [h.pivot_angle, h.fin_angle]
    exact rotated_scaled (rotated_scaled hS _ _ h.pivot_point) _ _ scaled_zero
  rcases h.offset_func with ⟨f, g, e1, e2, hf⟩ | ⟨e1, e2⟩
  · rw [e1, e2]
    exact offsetPatch_scaled h2 hf
  · rw [e1, e2]
    exact h2

theorem fin_scaled (hk : 0 < k) (hk1 : k ≤ 1) {find : (ℝ → Res ℝ) → Res ℝ} (hfind : FindScaled k find) (ptan : ℝ → ℝ)
    {a b : Fin.Args} (h : FinScaled k a b) : GenOutScaled k (Fin.out find ptan a) (Fin.out find ptan b) := by
  intro he
  unfold Fin.out at he ⊢
  cases hu : Fin.unplaced find ptan a with
  | error e => rw [hu] at he; simp at he
  | ok l =>
    obtain ⟨l', e, hl⟩ := fin_unplaced_scaled hk hk1 hfind ptan h l hu
    rw [e]
    refine ⟨rfl, ?_, rfl, rfl⟩
    unfold ItemsScaled
    simp only [List.forall₂_map_left_iff, List.forall₂_map_right_iff]
    exact hl.imp fun _ _ h' => ⟨h'.1, fin_place_scaled h h'.2⟩

/-! ## Bodies of revolution, swept bodies, boxes and balls -/

theorem revolved_scaled {p q : PathObj} (h : PathScaled k p q) : GenOutScaled k
    (runSteps ((List.range 4).map fun (i : ℕ) => .patch ("revolved_fuse_" ++ toString i) (.ok (RevolvedPatch p (i * Real.pi / 2) (((i : ℝ) + 1) * Real.pi / 2)))))
    (runSteps ((List.range 4).map fun (i : ℕ) => .patch ("revolved_fuse_" ++ toString i) (.ok (RevolvedPatch q (i * Real.pi / 2) (((i : ℝ) + 1) * Real.pi / 2))))) := by
  apply runSteps_scaled
  rw [List.forall₂_map_left_iff, List.forall₂_map_right_iff, List.forall₂_same]
  exact fun i _ => .patch (follows_ok (revolvedPatch_scaled h _ _))

theorem faces_scaled {S T : String → Surf} (h : ∀ f, SurfScaled k (S f) (T f)) : GenOutScaled k
    (runSteps (faceNames.map fun f => .patch f (.ok (S f)))) (runSteps (faceNames.map fun f => .patch f (.ok (T f)))) := by
  apply runSteps_scaled
  rw [List.forall₂_map_left_iff, List.forall₂_map_right_iff, List.forall₂_same]
  exact fun f _ => .patch (follows_ok (h f))

theorem getIdx_some {α : Type} {l : List α} {i : ℕ} {x : α} (h : SweptPatch.getIdx l i = .ok x) : l[i]? = some x := by
  unfold SweptPatch.getIdx at h
  split at h
  · rename_i y hy
    cases h
    exact hy
  · cases h

theorem swept_scaled (hk : 0 < k) {S T : List (List PathObj)} (hk1 : k ≤ 1 ∨ ∀ cs ∈ S, cs.length = 4 ∧ Joined cs) (h : SectionsScaled k S T) (n : ℕ) (close : Bool) (res : Reso) :
    GenOutScaled k (runSteps (Swept.steps S n close res)) (runSteps (Swept.steps T n close res)) := by
  apply runSteps_scaled
  unfold Swept.steps
  refine List.rel_append ?_ ?_
  · refine List.rel_flatMap (List.forall₂_same.2 fun i _ => (rfl : i = i)) ?_
    intro i j hij
    subst hij
    unfold Swept.edgeSteps
    refine .cons (.patch ?_) (.cons .resR (.cons .resS .nil))
    unfold Swept.edgePatch
    exact follows_bind (follows_mapM₂ h fun a b hab => follows_getIdx hab i) fun _ _ he => follows_pure (sweptFromEdges_scaled he)
  · split
    · unfold Swept.endSteps
      refine .cons (.patch ?_) (.cons .resR (.cons .resS (.cons (.patch ?_) (.cons .resR (.cons .resS .nil)))))
      · unfold Swept.frontPatch
        refine follows_bind (follows_and (follows_getIdx h 0)) fun cs _ he => follows_bind (follows_and (follows_getIdx he.2 0)) fun _ _ h0 =>
          follows_bind (follows_and (follows_getIdx he.2 1)) fun _ _ h1 => follows_bind (follows_and (follows_getIdx he.2 2)) fun _ _ h2 =>
          follows_bind (follows_and (follows_getIdx he.2 3)) fun _ _ h3 => coons_scaled' hk (hk1.imp id fun hJ => ?_) (reversed_scaled h2.2) h1.2 h0.2
            (reversed_scaled h3.2)
        obtain ⟨hl, hJ⟩ := hJ cs (List.mem_of_getElem? (getIdx_some he.1))
        have j0 := hJ 0 _ _ (getIdx_some h0.1) (by rw [hl]; exact getIdx_some h1.1)
        have j1 := hJ 1 _ _ (getIdx_some h1.1) (by rw [hl]; exact getIdx_some h2.1)
        have j2 := hJ 2 _ _ (getIdx_some h2.1) (by rw [hl]; exact getIdx_some h3.1)
        have j3 := hJ 3 _ _ (getIdx_some h3.1) (by rw [hl]; exact getIdx_some h0.1)
        simp only [ReversedPath, SubRangedPath, zero_sub, zero_mul, one_mul, add_zero, add_neg_cancel]
        exact ⟨j3.symm, j0, j2, j1.symm⟩
      · unfold Swept.rearPatch
        rw [← List.Forall₂.length_eq h]
        refine follows_bind (follows_and (follows_getIdx h _)) fun cs _ he => follows_bind (follows_and (follows_getIdx he.2 0)) fun _ _ h0 =>
          follows_bind (follows_and (follows_getIdx he.2 3)) fun _ _ h3 => follows_bind (follows_and (follows_getIdx he.2 2)) fun _ _ h2 =>
          follows_bind (follows_and (follows_getIdx he.2 1)) fun _ _ h1 => coons_scaled' hk (hk1.imp id fun hJ => ?_) h2.2 (reversed_scaled h3.2)
            (reversed_scaled h0.2) h1.2
        obtain ⟨hl, hJ⟩ := hJ cs (List.mem_of_getElem? (getIdx_some he.1))
        have j0 := hJ 0 _ _ (getIdx_some h0.1) (by rw [hl]; exact getIdx_some h1.1)
        have j1 := hJ 1 _ _ (getIdx_some h1.1) (by rw [hl]; exact getIdx_some h2.1)
        have j2 := hJ 2 _ _ (getIdx_some h2.1) (by rw [hl]; exact getIdx_some h3.1)
        have j3 := hJ 3 _ _ (getIdx_some h3.1) (by rw [hl]; exact getIdx_some h0.1)
        simp only [ReversedPath, SubRangedPath, zero_sub, zero_mul, one_mul, add_zero, add_neg_cancel]
        exact ⟨j0, j3.symm, j1.symm, j2⟩
    · exact .nil

theorem forM_follows {ι κ : Type} {Q : ι → κ → Prop} {f : ι → Res Unit} {g : κ → Res Unit} {l : List ι} {l' : List κ}
    (hl : List.Forall₂ Q l l') (h : ∀ i j, Q i j → Follows Eq (f i) (g j)) : Follows Eq (l.forM f) (l'.forM g) := by
  induction hl with
  | nil => exact follows_refl _
  | cons hij _ ih =>
    simp only [List.forM]
    exact follows_bind (h _ _ hij) fun _ _ _ => ih

theorem forall₂_mem {ι κ : Type} {Q : ι → κ → Prop} {l : List ι} {l' : List κ} (h : List.Forall₂ Q l l') :
    List.Forall₂ (fun a b => a ∈ l ∧ Q a b) l l' := by
  induction h with
  | nil => exact .nil
  | cons h _ ih => exact .cons ⟨by simp, h⟩ (ih.imp fun _ _ h => ⟨by simp [h.1], h.2⟩)

theorem swept_init_scaled (hk : 0 < k) {S T : List (List PathObj)} (hk1 : k ≤ 1 ∨ ∀ cs ∈ S, cs.length = 4 ∧ Joined cs) (h : SectionsScaled k S T) (close : Bool) (res : Reso)
    (name : Option String) : Follows (fun c d => ∃ n, c = Swept.comp S n close res name ∧ d = Swept.comp T n close res name)
      (Swept.init S close res name) (Swept.init T close res name) := by
  unfold Swept.init
  refine follows_bind (follows_getIdx h 0) fun f f' hf => follows_bind (R := Eq) ?_ fun _ _ _ => follows_pure ⟨f.length, rfl, by rw [hf.length_eq]⟩
  unfold Swept.checkOptions
  rw [← hf.length_eq]
  refine follows_bind (R := Eq) ?_ fun _ _ _ => follows_refl _
  refine forM_follows (forall₂_mem h) fun cs cs' hcs => ?_
  obtain ⟨hmem, hcs⟩ := hcs
  unfold Swept.checkSection
  rw [← hcs.length_eq]
  split
  · exact follows_throw
  refine forM_follows (List.forall₂_same.2 fun i _ => (rfl : i = i)) fun i j hij => ?_
  subst hij
  unfold Swept.checkJoint
  rw [← hcs.length_eq]
  refine follows_bind (follows_and (follows_getIdx hcs _)) fun e e' he => follows_bind (follows_and (he.2.call 1)) fun p p' hp =>
    follows_bind (follows_and (follows_getIdx hcs _)) fun d d' hd => follows_bind (follows_and (hd.2.call 0)) fun q q' hq => ?_
  obtain ⟨ge, he⟩ := he
  obtain ⟨gd, hd⟩ := hd
  obtain ⟨gp, hp⟩ := hp
  obtain ⟨gq, hq⟩ := hq
  have hex : k ≤ 1 ∨ q = p := by
    refine hk1.imp id fun hJ => ?_
    have hi := getIdx_some ge
    have hlt : i < cs.length := (List.getElem?_eq_some_iff.1 hi).1
    have hj := getIdx_some gd
    have : (if i + 1 < cs.length then i + 1 else 0) = (i + 1) % cs.length := by
      split
      · rename_i h; rw [Nat.mod_eq_of_lt h]
      · rename_i h; rw [show i + 1 = cs.length by omega, Nat.mod_self]
    rw [this] at hj
    have := (hJ cs hmem).2 i e d hi hj
    rw [gp, gq] at this
    exact (Except.ok.inj this).symm
  have key : ∀ {x y : ℝ}, k ≤ 1 ∨ x = y → |x * k - y * k| > 1e-12 → |x - y| > 1e-12 := by
    intro x y h1 h
    rcases h1 with hk1 | rfl
    · rw [← sub_mul, _root_.abs_mul, abs_of_pos hk] at h
      exact lt_of_lt_of_le h (mul_le_of_le_one_right (_root_.abs_nonneg _) hk1)
    · simp at h
      exact absurd h (by norm_num)
  split
  · exact follows_throw
  rename_i h0
  rw [if_neg]
  · exact follows_refl _
  · rw [scaled_x hp, scaled_x hq, scaled_y hp, scaled_y hq, scaled_z hp, scaled_z hq]
    exact fun h1 => h0 (h1.imp (key (hex.imp id (congrArg _))) (Or.imp (key (hex.imp id (congrArg _))) (key (hex.imp id (congrArg _)))))

end
end HV
