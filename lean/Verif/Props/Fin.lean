import Verif.Props.Wing
import Verif.Props.Rigid
import Verif.Props.Polyline

/-!
# C63, C64: fins
-/

namespace HV
open Spec

/-- `q` is the image of the point `p` of the unplaced fin: rotation by `pivot_angle` about the line through `pivot_point` in the
direction of `y`, then rotation by `fin_angle` about the `x` axis, then the offset function. -/
def Spec.FinPlaced (a : Fin.Args) (p q : V) : Prop :=
  ∃ u v : V, toF u = toF a.pivot_point + rodrigues (Pi.single 1 1) (toF p - toF a.pivot_point) a.pivot_angle ∧
    toF v = rodrigues (Pi.single 0 1) (toF u) a.fin_angle ∧
    match a.offset_func with
    | none => q = v
    | some f => ∃ o, f v.x v.y v.z = .ok o ∧ q = v + o

/-- The names of the patches of a fin. -/
def Spec.finNames (rudder : String) : List String :=
  ["top_patch", "bot_patch", "LE_top_patch_0", "LE_top_patch_1", "LE_bot_patch_0", "LE_bot_patch_1", "bot_ellip", "bot_1",
    "bot_2"] ++ if rudder = "sharp" then ["TE_top", "TE_bot", "TE_ellipse", "TE_triangle"] else ["TE_ellip", "TE_1", "TE_2"]

namespace Fin

theorem toF_inj {u v : V} (h : toF u = toF v) : u = v := by
  have h0 := congrFun h 0
  have h1 := congrFun h 1
  have h2 := congrFun h 2
  exact Vec.ext h0 h1 h2

theorem RotatedPatch_inv {S : Surf} {θ : ℝ} {axis : String} {pt : V} {r s : ℝ} {q : V}
    (h : RotatedPatch S θ axis pt r s = .ok q) : ∃ p, S r s = .ok p := by
  unfold RotatedPatch at h
  obtain ⟨p, hp, -⟩ := bind_ok.1 h
  exact ⟨p, hp⟩

/-- A placed patch evaluates exactly at the images of the points of the unplaced patch. -/
theorem place_ok (a : Args) (S : Surf) (r s : ℝ) (q : V) :
    place a S r s = .ok q ↔ ∃ p, S r s = .ok p ∧ FinPlaced a p q := by
  have key : ∀ v, RotatedPatch (RotatedPatch S a.pivot_angle "y" a.pivot_point) a.fin_angle "x" ⟨0, 0, 0⟩ r s = .ok v ↔
      ∃ p u, S r s = .ok p ∧ toF u = toF a.pivot_point + rodrigues (Pi.single 1 1) (toF p - toF a.pivot_point) a.pivot_angle ∧
        toF v = rodrigues (Pi.single 0 1) (toF u) a.fin_angle := by
    intro v
    have z : toF (⟨0, 0, 0⟩ : V) = 0 := by
      funext i; fin_cases i <;> rfl
    constructor
    · intro h
      obtain ⟨u, hu⟩ := RotatedPatch_inv h
      obtain ⟨p, hp⟩ := RotatedPatch_inv hu
      obtain ⟨u', h1, h2⟩ := C25_rotation S a.pivot_angle "y" 1 a.pivot_point (.inl rfl) r s p hp
      rw [hu] at h1
      cases h1
      obtain ⟨v', h3, h4⟩ := C25_rotation _ a.fin_angle "x" 0 ⟨0, 0, 0⟩ (.inl rfl) r s u hu
      rw [h] at h3
      cases h3
      refine ⟨p, u, hp, h2, ?_⟩
      rw [h4, z]; simp
    · rintro ⟨p, u, hp, h2, h4⟩
      obtain ⟨u', h1, h2'⟩ := C25_rotation S a.pivot_angle "y" 1 a.pivot_point (.inl rfl) r s p hp
      obtain rfl : u = u' := toF_inj (h2.trans h2'.symm)
      obtain ⟨v', h3, h4'⟩ := C25_rotation _ a.fin_angle "x" 0 ⟨0, 0, 0⟩ (.inl rfl) r s u h1
      rw [z, sub_zero, zero_add] at h4'
      obtain rfl : v = v' := toF_inj (h4.trans h4'.symm)
      exact h3
  unfold place FinPlaced
  cases ho : a.offset_func with
  | none =>
    simp only
    rw [key]
    constructor
    · rintro ⟨p, u, h1, h2, h3⟩
      exact ⟨p, h1, u, q, h2, h3, rfl⟩
    · rintro ⟨p, h1, u, v, h2, h3, rfl⟩
      exact ⟨p, u, h1, h2, h3⟩
  | some f =>
    simp only
    rw [offsetPatch_ok]
    constructor
    · rintro ⟨v, o, h1, h2, rfl⟩
      obtain ⟨p, u, g1, g2, g3⟩ := (key v).1 h1
      exact ⟨p, g1, u, v, g2, g3, o, h2, rfl⟩
    · rintro ⟨p, g1, u, v, g2, g3, o, h2, rfl⟩
      exact ⟨v, o, (key v).2 ⟨p, u, g1, g2, g3⟩, h2, rfl⟩

theorem unplaced_ok {find : (ℝ → Res ℝ) → Res ℝ} {ptan : ℝ → ℝ} {a : Args} {l : List (String × Surf)}
    (h : unplaced find ptan a = .ok l) : ∃ p f rest,
      CoonsPatch (Line a.p1 a.p2) (Line a.p3 a.p2) (Line a.p0 a.p3) (Line a.p0 a.p1) = .ok p ∧
      CoonsPatch (Line a.p3 a.p2) (Line a.p1 a.p2) (Line a.p0 a.p1) (Line a.p0 a.p3) = .ok f ∧
      l = ("top_patch", OffsetPatchFunction f a.top_tf) :: ("bot_patch", OffsetPatchFunction p a.bot_tf) :: rest ∧
      l.map (·.1) = finNames a.rudder_type := by
  unfold unplaced at h
  obtain ⟨line, -, h⟩ := bind_ok.1 h
  obtain ⟨s, hs, h⟩ := bind_ok.1 h
  obtain ⟨le, hle, h⟩ := bind_ok.1 h
  obtain ⟨b, hb, h⟩ := bind_ok.1 h
  obtain ⟨te, hte, h⟩ := bind_ok.1 h
  obtain rfl := pure_ok.1 h
  unfold skins at hs
  obtain ⟨⟨p, f⟩, hpf, hs⟩ := bind_ok.1 hs
  obtain rfl := pure_ok.1 hs
  unfold planform at hpf
  obtain ⟨p', hp, hpf⟩ := bind_ok.1 hpf
  obtain ⟨f', hf, hpf⟩ := bind_ok.1 hpf
  obtain ⟨rfl, rfl⟩ := Prod.mk.inj (pure_ok.1 hpf)
  refine ⟨p', f', le ++ b ++ te, hp, hf, by simp, ?_⟩
  have nle : le.map (·.1) = ["LE_top_patch_0", "LE_top_patch_1", "LE_bot_patch_0", "LE_bot_patch_1"] := by
    unfold leadingEdge at hle
    obtain ⟨t, -, hle⟩ := bind_ok.1 hle
    obtain rfl := pure_ok.1 hle
    rfl
  have nb : b.map (·.1) = ["bot_ellip", "bot_1", "bot_2"] := by
    unfold bottom at hb
    obtain ⟨_, -, hb⟩ := bind_ok.1 hb
    obtain ⟨_, -, hb⟩ := bind_ok.1 hb
    obtain ⟨_, -, hb⟩ := bind_ok.1 hb
    obtain ⟨_, -, hb⟩ := bind_ok.1 hb
    obtain ⟨_, -, hb⟩ := bind_ok.1 hb
    obtain ⟨_, -, hb⟩ := bind_ok.1 hb
    obtain ⟨_, -, hb⟩ := bind_ok.1 hb
    obtain ⟨_, -, hb⟩ := bind_ok.1 hb
    obtain ⟨_, -, hb⟩ := bind_ok.1 hb
    obtain rfl := pure_ok.1 hb
    rfl
  unfold trailingEdge at hte
  have nte : te.map (·.1) = if a.rudder_type = "sharp" then ["TE_top", "TE_bot", "TE_ellipse", "TE_triangle"]
      else ["TE_ellip", "TE_1", "TE_2"] := by
    by_cases hr : a.rudder_type = "sharp"
    · rw [if_pos hr] at hte ⊢
      unfold sharpTE at hte
      obtain ⟨_, -, hte⟩ := bind_ok.1 hte
      obtain ⟨_, -, hte⟩ := bind_ok.1 hte
      obtain ⟨_, -, hte⟩ := bind_ok.1 hte
      obtain ⟨_, -, hte⟩ := bind_ok.1 hte
      obtain ⟨_, -, hte⟩ := bind_ok.1 hte
      obtain ⟨_, -, hte⟩ := bind_ok.1 hte
      obtain ⟨_, -, hte⟩ := bind_ok.1 hte
      obtain ⟨_, -, hte⟩ := bind_ok.1 hte
      obtain ⟨_, -, hte⟩ := bind_ok.1 hte
      obtain ⟨_, -, hte⟩ := bind_ok.1 hte
      obtain rfl := pure_ok.1 hte
      rfl
    · rw [if_neg hr] at hte ⊢
      unfold flatTE at hte
      obtain ⟨_, -, hte⟩ := bind_ok.1 hte
      obtain ⟨_, -, hte⟩ := bind_ok.1 hte
      obtain ⟨_, -, hte⟩ := bind_ok.1 hte
      obtain ⟨_, -, hte⟩ := bind_ok.1 hte
      obtain ⟨_, -, hte⟩ := bind_ok.1 hte
      obtain ⟨_, -, hte⟩ := bind_ok.1 hte
      obtain ⟨_, -, hte⟩ := bind_ok.1 hte
      obtain ⟨_, -, hte⟩ := bind_ok.1 hte
      obtain ⟨_, -, hte⟩ := bind_ok.1 hte
      obtain rfl := pure_ok.1 hte
      rfl
  simp only [List.map_append, List.map_cons, List.map_nil, nle, nb, nte, finNames]
  rfl

theorem finNames_nodup (r : String) : (finNames r).Nodup := by
  unfold finNames; split <;> decide

/-- Generating a fin. -/
theorem generated {find : (ℝ → Res ℝ) → Res ℝ} {ptan : ℝ → ℝ} {a : Args} {h : Heap} {id : ℕ}
    (hid : (h id).gen = (comp find ptan a).gen) :
    ((generatePatches h id).1 = .ok () ↔ ∃ l, unplaced find ptan a = .ok l) ∧
    ∀ l, unplaced find ptan a = .ok l → ((generatePatches h id).2 id).patches = l.map fun e => (e.1, place a e.2) := by
  have hg : generatePatches h id = (((h id).genReplace (out find ptan a)).1, h.upd id ((h id).genReplace (out find ptan a)).2) := by
    unfold generatePatches Composite.genLeaf
    have : (h id).gen = .replace fun _ => out find ptan a := hid
    simp only [this]
  rw [hg]
  simp only [upd_self]
  constructor
  · unfold out Comp.genReplace
    cases hu : unplaced find ptan a with
    | ok l => simp
    | error e => simp
  · intro l hl
    unfold out Comp.genReplace
    simp only [hl]
    apply Dict.setAll_nil_nodup
    obtain ⟨-, -, -, -, -, -, hn⟩ := unplaced_ok hl
    rw [List.map_map]
    show (l.map (·.1)).Nodup
    rw [hn]
    exact finNames_nodup _

end Fin

/-- Exchanging the parameters of a Coons patch. -/
theorem coons_swap (n e s w : PathObj) (P F : Surf) (hP : CoonsPatch n e s w = .ok P) (hF : CoonsPatch e n w s = .ok F)
    (hc : s.call 0 = w.call 0 ∧ s.call 1 = e.call 0 ∧ n.call 0 = w.call 1 ∧ n.call 1 = e.call 1) (r t : ℝ)
    (p : V) (hp : F r t = .ok p) : P t r = .ok p := by
  obtain ⟨c, hc', hP⟩ := bind_ok.1 hP
  obtain ⟨c', hc'', hF⟩ := bind_ok.1 hF
  rw [← pure_ok.1 hP]
  rw [← pure_ok.1 hF] at hp
  obtain ⟨a1, a2, a3, a4, a5, a6, a7, a8, b1, b2, b3, b4, b5, b6, b7, b8, -, -, -, -, rfl⟩ :=
    (Coons.ofEdges_ok_iff n e s w _ c).1 hc'
  obtain ⟨d1, d2, d3, d4, d5, d6, d7, d8, f1, f2, f3, f4, f5, f6, f7, f8, -, -, -, -, rfl⟩ :=
    (Coons.ofEdges_ok_iff e n w s _ c').1 hc''
  obtain ⟨c1, c2, c3, c4⟩ := hc
  obtain rfl : a1 = d1 := by rw [c1, f1] at b1; exact (Except.ok.inj b1).symm
  obtain rfl : a2 = d3 := by rw [c2, f3] at b2; exact (Except.ok.inj b2).symm
  obtain rfl : a3 = d2 := by rw [c3, f2] at b3; exact (Except.ok.inj b3).symm
  obtain rfl : a4 = d4 := by rw [c4, f4] at b4; exact (Except.ok.inj b4).symm
  unfold Coons.call at hp ⊢
  obtain ⟨sr, g1, hp⟩ := bind_ok.1 hp
  obtain ⟨nr, g2, hp⟩ := bind_ok.1 hp
  obtain ⟨wr, g3, hp⟩ := bind_ok.1 hp
  obtain ⟨er, g4, hp⟩ := bind_ok.1 hp
  simp only at g1 g2 g3 g4
  rw [← pure_ok.1 hp]
  simp only [g1, g2, g3, g4, bind, Except.bind, pure, Except.pure, Except.ok.injEq, Coons.blend]
  ext <;> simp <;> ring

/-- C63: in every fin that generates, the upper skin at `(r,s)` and the lower skin at `(s,r)` come from the same planform point,
moved by the upper and by the lower thickness function and then placed. -/
theorem C63_fin (find : (ℝ → Res ℝ) → Res ℝ) (ptan : ℝ → ℝ) (a : Fin.Args) (h : Heap) (id : ℕ)
    (hid : (h id).gen = (Fin.comp find ptan a).gen) (hok : (generatePatches h id).1 = .ok ()) :
    ∃ top bot, ((generatePatches h id).2 id).patches.get? "top_patch" = some top ∧
      ((generatePatches h id).2 id).patches.get? "bot_patch" = some bot ∧
      ∀ r s p q, top r s = .ok p → bot s r = .ok q →
        ∃ P u v, a.top_tf P.x P.y P.z = .ok u ∧ a.bot_tf P.x P.y P.z = .ok v ∧ FinPlaced a (P + u) p ∧
          FinPlaced a (P + v) q := by
  obtain ⟨l, hl⟩ := (Fin.generated hid).1.1 hok
  have hp := (Fin.generated hid).2 l hl
  obtain ⟨p, f, rest, h1, h2, rfl, -⟩ := Fin.unplaced_ok hl
  rw [hp]
  refine ⟨_, _, rfl, rfl, ?_⟩
  intro r s p' q' g1 g2
  obtain ⟨x, k1, k2⟩ := (Fin.place_ok a _ r s p').1 g1
  obtain ⟨y, k3, k4⟩ := (Fin.place_ok a _ s r q').1 g2
  obtain ⟨P, u, m1, m2, rfl⟩ := offsetPatch_ok.1 k1
  obtain ⟨P', v, m3, m4, rfl⟩ := offsetPatch_ok.1 k3
  have := coons_swap _ _ _ _ p f h1 h2 ⟨by rw [line_zero, line_zero], by rw [line_zero, line_one], by rw [line_zero, line_one],
    by rw [line_one, line_one]⟩ r s P m1
  rw [this] at m3
  cases m3
  exact ⟨P, u, v, m2, m4, k2, k4⟩

/-- C64: a fin and the same fin without pivot, rotation and offset ("unplaced") generate or fail together.  If they generate, both
have the patches named by the rudder type, in order, and each patch of the fin evaluates exactly to the images of the points of the
unplaced patch of that name: rotation by `pivot_angle` about the `y` line through `pivot_point`, then rotation by `fin_angle` about
the `x` axis, then the offset function. -/
theorem C64_placement (find : (ℝ → Res ℝ) → Res ℝ) (ptan : ℝ → ℝ) (a : Fin.Args) (h h₀ : Heap) (id id₀ : ℕ)
    (hid : (h id).gen = (Fin.comp find ptan a).gen) (hid₀ : (h₀ id₀).gen =
      (Fin.comp find ptan { a with pivot_angle := 0, fin_angle := 0, offset_func := none }).gen) :
    ((generatePatches h id).1 = .ok () ↔ (generatePatches h₀ id₀).1 = .ok ()) ∧
    ((generatePatches h id).1 = .ok () →
      ((generatePatches h id).2 id).patches.keys = finNames a.rudder_type ∧
      ((generatePatches h₀ id₀).2 id₀).patches.keys = finNames a.rudder_type ∧
      ∀ name ∈ finNames a.rudder_type, ∃ S S₀, ((generatePatches h id).2 id).patches.get? name = some S ∧
        ((generatePatches h₀ id₀).2 id₀).patches.get? name = some S₀ ∧
        ∀ r s q, S r s = .ok q ↔ ∃ p, S₀ r s = .ok p ∧ FinPlaced a p q) := by
  set a₀ : Fin.Args := { a with pivot_angle := 0, fin_angle := 0, offset_func := none } with ha₀
  have hu : Fin.unplaced find ptan a₀ = Fin.unplaced find ptan a := rfl
  have g := Fin.generated hid
  have g₀ := Fin.generated hid₀
  rw [hu] at g₀
  refine ⟨g.1.trans g₀.1.symm, fun hok => ?_⟩
  obtain ⟨l, hl⟩ := g.1.1 hok
  have hn : l.map (·.1) = finNames a.rudder_type := by
    obtain ⟨-, -, -, -, -, -, hn⟩ := Fin.unplaced_ok hl; exact hn
  have hk : ∀ b : Fin.Args, Dict.keys (l.map fun e => (e.1, Fin.place b e.2)) = finNames a.rudder_type := by
    intro b; rw [← hn]; simp [Dict.keys]
  rw [g.2 l hl, g₀.2 l hl]
  refine ⟨hk a, hk a₀, fun name hname => ?_⟩
  rw [← hn] at hname
  obtain ⟨e, he, rfl⟩ := List.mem_map.1 hname
  have hnd : ∀ b : Fin.Args, (Dict.keys (l.map fun e => (e.1, Fin.place b e.2))).Nodup := fun b => by
    rw [hk b]; exact Fin.finNames_nodup _
  refine ⟨Fin.place a e.2, Fin.place a₀ e.2, ?_, ?_, ?_⟩
  · exact Dict.get?_of_mem (hnd a) (List.mem_map.2 ⟨e, he, rfl⟩)
  · exact Dict.get?_of_mem (hnd a₀) (List.mem_map.2 ⟨e, he, rfl⟩)
  · intro r s q
    have hid' : ∀ p p', FinPlaced a₀ p p' ↔ p' = p := by
      have hrod : ∀ k v, rodrigues k v 0 = v := by intro k v; simp [rodrigues]
      intro p p'
      unfold FinPlaced
      simp only [ha₀, hrod, add_sub_cancel]
      constructor
      · rintro ⟨u, v, h1, h2, rfl⟩
        exact Fin.toF_inj (h2.trans h1)
      · rintro rfl
        exact ⟨p', p', rfl, rfl, rfl⟩
    rw [Fin.place_ok]
    constructor
    · rintro ⟨p, h1, h2⟩
      exact ⟨p, (Fin.place_ok a₀ e.2 r s p).2 ⟨p, h1, (hid' p p).2 rfl⟩, h2⟩
    · rintro ⟨p, h1, h2⟩
      obtain ⟨p', h3, h4⟩ := (Fin.place_ok a₀ e.2 r s p).1 h1
      rw [(hid' p' p).1 h4] at h2
      exact ⟨p', h3, h2⟩

/-! ## Fins generate -/

theorem poleFits_neg {ptan : ℝ → ℝ} {th w : ℝ} (h : PoleFits ptan th w) : PoleFits ptan (-th) w := by
  obtain ⟨⟨a1, a2, a3⟩, a4⟩ := h
  exact ⟨⟨a1, by rwa [abs_neg], by rwa [abs_neg]⟩, a4⟩

theorem sub_half (a : Fin.Args) (p : V) : p - Fin.half a = ⟨p.x, p.y, p.z - a.fin_thickness / 2⟩ := by
  ext <;> simp [Fin.half]

theorem add_half (a : Fin.Args) (p : V) : p + Fin.half a = ⟨p.x, p.y, p.z + a.fin_thickness / 2⟩ := by
  ext <;> simp [Fin.half]

/-- The two elliptical edges at a corner of a fin of positive thickness. -/
theorem Fin.tips (ptan : ℝ → ℝ) (hT : TanLike ptan) (a : Fin.Args) (ht : 0 < a.fin_thickness) (p : V) (w : ℝ) (hw : 0 < w)
    (hfit : PoleFits ptan (a.fin_thickness / 2) w) :
    ∃ et eb, ArcLengthParameterizedPath (ElipsePath ptan p (-(a.fin_thickness / 2)) w "top") = .ok et ∧
      ArcLengthParameterizedPath (ElipsePath ptan p (a.fin_thickness / 2) w "bot") = .ok eb ∧
      ∃ q u v, et.call 1 = .ok q ∧ eb.call 0 = .ok q ∧ et.call 0 = .ok u ∧ eb.call 1 = .ok v ∧
        CornerClose u (p - Fin.half a) ∧ CornerClose v (p + Fin.half a) ∧ CornerClose (p - Fin.half a) u ∧
        CornerClose (p + Fin.half a) v := by
  have hne : a.fin_thickness / 2 ≠ 0 := by positivity
  have habs : |a.fin_thickness / 2| = a.fin_thickness / 2 := abs_of_pos (by positivity)
  obtain ⟨-, et, h1, -, h2, u, h3, h4, h5, h6⟩ := elipse_arc ptan hT p (-(a.fin_thickness / 2)) w (neg_ne_zero.2 hne) hw (poleFits_neg hfit)
  obtain ⟨⟨eb, k1, -, k2, v, k3, k4, k5, k6⟩, -⟩ := elipse_arc ptan hT p (a.fin_thickness / 2) w hne hw hfit
  rw [abs_neg, habs] at h6
  rw [habs] at k6
  refine ⟨et, eb, h1, k1, _, u, v, h2, k2, h3, k3, ?_, ?_, ?_, ?_⟩
  · rw [sub_half]; exact cornerClose_of h4 h5 h6
  · rw [add_half]; exact cornerClose_of k4 k5 k6
  · rw [sub_half]; exact cornerClose_of h4.symm (by rwa [abs_sub_comm]) (by rwa [abs_sub_comm])
  · rw [add_half]; exact cornerClose_of k4.symm (by rwa [abs_sub_comm]) (by rwa [abs_sub_comm])

/-- Every fin of positive uniform thickness with distinct outline points generates, if the bisection for the leading edge break
succeeds and the leading edge widths at the two ends are positive and not too small for the numerical tangent.  A sharp trailing
edge needs an outline in the plane `z = 0` at `p1`. -/
theorem Fin.generates (find : (ℝ → Res ℝ) → Res ℝ) (ptan : ℝ → ℝ) (hT : TanLike ptan) (a : Fin.Args)
    (ht : 0 < a.fin_thickness) (htop : a.top_tf = uniformThickness a.fin_thickness "top")
    (hbot : a.bot_tf = uniformThickness a.fin_thickness "bot") (h12 : a.p1 ≠ a.p2) (h23 : a.p2 ≠ a.p3)
    (hfind : ∀ f, (∀ t, ∃ y, f t = .ok y) → ∃ t, find f = .ok t) (w0 w1 : ℝ) (hw0 : a.LE_wf 0 = .ok w0) (hw1 : a.LE_wf 1 = .ok w1)
    (hp0 : 0 < w0) (hp1 : 0 < w1) (hf0 : PoleFits ptan (a.fin_thickness / 2) w0) (hf1 : PoleFits ptan (a.fin_thickness / 2) w1)
    (hsharp : a.rudder_type = "sharp" → a.p1.z = 0) (h : Heap) (id : ℕ)
    (hid : (h id).gen = (Fin.comp find ptan a).gen) : (generatePatches h id).1 = .ok () := by
  rw [(Fin.generated hid).1]
  have lenp : ∀ u v : V, u ≠ v → 0 < (v - u).abs := by
    intro u v huv
    rw [Vec.abs_sub_eq_vdist]
    exact dist_pos.2 fun h => huv (Vec.toE_injective h).symm
  classical
  let len : PathObj → ℝ := fun s => match s.length with | .ok l => l | .error _ => 0
  obtain ⟨line, hline, hcall⟩ := C11_evaluates_partial len [Line a.p1 a.p2, Line a.p2 a.p3] (by simp)
    (by
      intro s hs
      simp only [List.mem_cons, List.not_mem_nil, or_false] at hs
      rcases hs with rfl | rfl
      · exact ⟨rfl, lenp _ _ h12⟩
      · exact ⟨rfl, lenp _ _ h23⟩)
    (by
      intro s hs
      simp only [List.mem_cons, List.not_mem_nil, or_false] at hs
      rcases hs with rfl | rfl <;> exact fun t => ⟨_, rfl⟩) (1 / 10 ^ 10)
  have tt : ∀ x y z, a.top_tf x y z = .ok ⟨0, 0, -(a.fin_thickness / 2)⟩ := by
    intro x y z; rw [htop]; simp [uniformThickness]; ring
  have tb : ∀ x y z, a.bot_tf x y z = .ok ⟨0, 0, a.fin_thickness / 2⟩ := by
    intro x y z; rw [hbot]; simp [uniformThickness]
  have hsk : ∃ l, skins a = .ok l := by
    obtain ⟨p, hp⟩ := coons_lines a.p1 a.p2 a.p3 a.p2 a.p0 a.p3 a.p0 a.p1 rfl rfl rfl rfl
    obtain ⟨f, hf⟩ := coons_lines a.p3 a.p2 a.p1 a.p2 a.p0 a.p1 a.p0 a.p3 rfl rfl rfl rfl
    unfold skins planform
    simp only [hp, hf, ok_bind, pure_eq]
    exact ⟨_, rfl⟩
  have hle : ∃ l, leadingEdge find ptan a line = .ok l := by
    obtain ⟨t, hf⟩ := hfind (fun t => do let p ← line.call t; return p.x - a.p2.x) (by
      intro t
      obtain ⟨p, hp⟩ := hcall t
      simp only [hp, ok_bind]
      exact ⟨_, rfl⟩)
    unfold leadingEdge
    simp only [hf, ok_bind]
    exact ⟨_, rfl⟩
  have rev : ∀ u v : V, (ReversedPath (Line u v)).call 0 = .ok v ∧ (ReversedPath (Line u v)).call 1 = .ok u := by
    intro u v
    rw [reversed_call, reversed_call, sub_zero, sub_self, line_one, line_zero]
    exact ⟨rfl, rfl⟩
  have hb : ∃ l, bottom ptan a = .ok l := by
    obtain ⟨et, eb, e1, e2, q, u, v, k1, k2, k3, k4, c1, c2, c3, c4⟩ := Fin.tips ptan hT a ht a.p3 w1 hp1 hf1
    obtain ⟨ell, hell⟩ := coons_meet (n := Line a.p3 (a.p3 + half a)) (e := eb) (s := et) (w := Line (a.p3 - half a) a.p3)
      ⟨_, _, _, _, _, _, _, _, k3, k1, line_zero _ _, line_one _ _, line_zero _ _, line_one _ _, k2, k4, c1,
        cornerClose_refl _, cornerClose_refl _, c4⟩
    obtain ⟨b1, hb1⟩ := coons_meet (n := Line (a.p3 - half a) (a.p0 - half a)) (e := Line a.p0 (a.p0 - half a))
      (s := Line a.p3 a.p0) (w := ReversedPath (Line (a.p3 - half a) a.p3))
      ⟨_, _, _, _, _, _, _, _, line_zero _ _, line_one _ _, line_zero _ _, line_one _ _, (rev _ _).1, (rev _ _).2,
        line_zero _ _, line_one _ _, cornerClose_refl _, cornerClose_refl _, cornerClose_refl _, cornerClose_refl _⟩
    obtain ⟨b2, hb2⟩ := coons_meet (n := Line a.p3 a.p0) (e := Line (a.p0 + half a) a.p0)
      (s := Line (a.p3 + half a) (a.p0 + half a)) (w := ReversedPath (Line a.p3 (a.p3 + half a)))
      ⟨_, _, _, _, _, _, _, _, line_zero _ _, line_one _ _, line_zero _ _, line_one _ _, (rev _ _).1, (rev _ _).2,
        line_zero _ _, line_one _ _, cornerClose_refl _, cornerClose_refl _, cornerClose_refl _, cornerClose_refl _⟩
    unfold bottom
    simp only [tt, tb, hw1, ok_bind, e1, e2, hell, hb1, hb2]
    exact ⟨_, rfl⟩
  have hte : ∃ l, trailingEdge ptan a = .ok l := by
    obtain ⟨et, eb, e1, e2, q, u, v, k1, k2, k3, k4, c1, c2, c3, c4⟩ := Fin.tips ptan hT a ht a.p1 w0 hp0 hf0
    unfold trailingEdge
    by_cases hr : a.rudder_type = "sharp"
    · rw [if_pos hr]
      have hz := hsharp hr
      have hTE : ∀ f, (∀ x y z, ∃ o, f x y z = .ok o) → ∀ side, side = "top" ∨ side = "bot" → ∃ F,
          TrailingEdgePatch a.p0 a.p1 (TrailingEdgePath a.p0 a.p1 f) a.rudder_length a.rudder_angle side = .ok F := by
        intro f hf side hs
        have tot : ∀ t, ∃ p, (TrailingEdgePath a.p0 a.p1 f).call t = .ok p := by
          intro t
          obtain ⟨o, ho⟩ := hf (lineAt a.p0 a.p1 t).x (lineAt a.p0 a.p1 t).y 0
          refine ⟨lineAt a.p0 a.p1 t + o, ?_⟩
          simp only [TrailingEdgePath, offsetPathAt, Line, bind, Except.bind, ho, pure, Except.pure]
        obtain ⟨q0, hq0⟩ := tot 0
        obtain ⟨q1, hq1⟩ := tot 1
        unfold TrailingEdgePatch
        rcases hs with rfl | rfl
        · simp only [true_or, if_true, ok_bind, pure_eq, line_zero, line_one, hq0, hq1]
          obtain ⟨F, hF, -⟩ := coons_ruled _ (TrailingEdgePath a.p0 a.p1 f) _ _ q0 q1 (line_zero _ _) (line_one _ _) hq0 hq1
          exact ⟨F, hF⟩
        · simp only [or_true, if_true, ok_bind, pure_eq, line_zero, line_one, hq0, hq1,
            show ("bot" = "top") = False by decide, if_false]
          obtain ⟨F, hF, -⟩ := coons_ruled (TrailingEdgePath a.p0 a.p1 f) _ q0 q1 _ _ hq0 hq1 (line_zero _ _) (line_one _ _)
          exact ⟨F, hF⟩
      obtain ⟨F, hF⟩ := hTE a.top_tf (fun x y z => ⟨_, tt x y z⟩) "top" (.inl rfl)
      obtain ⟨G, hG⟩ := hTE a.bot_tf (fun x y z => ⟨_, tb x y z⟩) "bot" (.inr rfl)
      have d1 : (⟨a.p1.x, a.p1.y, -(a.fin_thickness / 2)⟩ : V) = a.p1 - half a := by
        rw [sub_half, hz]; ext <;> simp
      have d2 : (⟨a.p1.x, a.p1.y, a.fin_thickness / 2⟩ : V) = a.p1 + half a := by
        rw [add_half, hz]; ext <;> simp
      obtain ⟨ell, hell⟩ := coons_meet (n := eb)
        (e := Line ⟨a.p1.x - a.rudder_length, a.p1.y, a.rudder_length * Real.sin a.rudder_angle⟩ (a.p1 + half a))
        (s := Line (a.p1 - half a) ⟨a.p1.x - a.rudder_length, a.p1.y, a.rudder_length * Real.sin a.rudder_angle⟩) (w := et)
        ⟨_, _, _, _, _, _, _, _, line_zero _ _, line_one _ _, k2, k4, k3, k1, line_zero _ _, line_one _ _, c3,
          cornerClose_refl _, cornerClose_refl _, c2⟩
      obtain ⟨tri, htri⟩ := coons_lines ⟨a.p0.x - a.rudder_length, a.p0.y, a.rudder_length * Real.sin a.rudder_angle⟩
        (a.p0 + half a) a.p0 (a.p0 + half a) (a.p0 - half a) a.p0 (a.p0 - half a)
        ⟨a.p0.x - a.rudder_length, a.p0.y, a.rudder_length * Real.sin a.rudder_angle⟩ rfl rfl rfl rfl
      unfold sharpTE
      simp only [hF, hG, tt, tb, hw0, ok_bind, e1, e2, d1, d2, hell, htri]
      exact ⟨_, rfl⟩
    · rw [if_neg hr]
      have sub : ∀ (p : PathObj), (SubRangedPath p 1 0).call 0 = p.call 1 ∧ (SubRangedPath p 1 0).call 1 = p.call 0 := by
        intro p; simp [SubRangedPath]
      obtain ⟨ell, hell⟩ := coons_meet (n := Line a.p1 (a.p1 - half a)) (e := SubRangedPath et 1 0) (s := SubRangedPath eb 1 0)
        (w := Line (a.p1 + half a) a.p1)
        ⟨_, _, _, _, _, _, _, _, (sub _).1.trans k4, (sub _).2.trans k2, line_zero _ _, line_one _ _, line_zero _ _,
          line_one _ _, (sub _).1.trans k1, (sub _).2.trans k3, c2, cornerClose_refl _, cornerClose_refl _, c3⟩
      obtain ⟨b1, hb1⟩ := coons_lines (a.p0 - half a) (a.p1 - half a) a.p1 (a.p1 - half a) a.p0 a.p1 a.p0 (a.p0 - half a)
        rfl rfl rfl rfl
      obtain ⟨b2, hb2⟩ := coons_lines a.p0 a.p1 (a.p1 + half a) a.p1 (a.p0 + half a) (a.p1 + half a) (a.p0 + half a) a.p0
        rfl rfl rfl rfl
      unfold flatTE
      simp only [tt, tb, hw0, ok_bind, e1, e2, hell, hb1, hb2]
      exact ⟨_, rfl⟩
  obtain ⟨l1, g1⟩ := hsk
  obtain ⟨l2, g2⟩ := hle
  obtain ⟨l3, g3⟩ := hb
  obtain ⟨l4, g4⟩ := hte
  unfold unplaced
  rw [hline, ok_bind, g1, ok_bind, g2, ok_bind, g3, ok_bind, g4, ok_bind]
  exact ⟨_, rfl⟩

/-- A trapezoidal fin. -/
noncomputable def exampleFin (rudder : String) : Fin.Args where
  p0 := ⟨0, 0, 0⟩
  p1 := ⟨0, 1, 0⟩
  p2 := ⟨1, 1, 0⟩
  p3 := ⟨2, 0, 0⟩
  fin_thickness := 0.1
  fin_angle := 0.5
  top_tf := uniformThickness 0.1 "top"
  bot_tf := uniformThickness 0.1 "bot"
  rudder_type := rudder
  rudder_length := 0.5
  rudder_angle := 0.1
  pivot_angle := 0.2
  pivot_point := ⟨1, 0, 0⟩
  offset_func := some fun _ _ _ => .ok ⟨0, 1, 0⟩

/-- The hypotheses of `C63_fin` and `C64_placement` are met: the trapezoidal fin generates. -/
example (rudder : String) : (generatePatches (fun _ => Fin.comp (fun _ => .ok 0.5) ieeeTan (exampleFin rudder)) 0).1 = .ok () := by
  have e0 : leadingEdgeWidth 0 = .ok 0.01 := by rw [leadingEdgeWidth_eq]; norm_num
  have e1 : leadingEdgeWidth 1 = .ok 0.01 := by rw [leadingEdgeWidth_eq]; norm_num
  have hf : PoleFits ieeeTan ((exampleFin rudder).fin_thickness / 2) 0.01 :=
    ieeeTan_fits _ _ (by simp only [exampleFin]; rw [abs_of_pos] <;> norm_num) (by norm_num)
  exact Fin.generates (fun _ => .ok 0.5) ieeeTan ieeeTan_like (exampleFin rudder) (by norm_num [exampleFin]) rfl rfl
    (by simp [exampleFin]) (by simp [exampleFin]) (fun _ _ => ⟨_, rfl⟩) 0.01 0.01 e0 e1 (by norm_num) (by norm_num) hf hf
    (fun _ => rfl) _ _ rfl

end HV
