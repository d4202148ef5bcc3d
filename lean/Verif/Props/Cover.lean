import Verif.Props.Polygon
import Verif.Props.Convergence
import Mathlib.Topology.Order.IntermediateValue

/-!
# C132: cubes, spheres and bodies of revolution are covered once by their patches
-/

namespace HV
namespace Spec

/-- A parameter pair on the border of the unit square. -/
def OnBorder (r s : ℝ) : Prop := r = 0 ∨ r = 1 ∨ s = 0 ∨ s = 1

/-- The named patches lie on the set `S`, reach all of it, and two different patches or parameter pairs have the same point only
on the borders of the patches. -/
structure CoversOnce (patches : List (String × Surf)) (S : V → Prop) : Prop where
  within : ∀ e ∈ patches, ∀ r s : ℝ, 0 ≤ r ∧ r ≤ 1 → 0 ≤ s ∧ s ≤ 1 → ∃ P, e.2 r s = .ok P ∧ S P
  onto : ∀ P, S P → ∃ e ∈ patches, ∃ r s : ℝ, (0 ≤ r ∧ r ≤ 1) ∧ (0 ≤ s ∧ s ≤ 1) ∧ e.2 r s = .ok P
  once : ∀ e ∈ patches, ∀ e' ∈ patches, ∀ r s r' s' : ℝ, 0 ≤ r ∧ r ≤ 1 → 0 ≤ s ∧ s ≤ 1 → 0 ≤ r' ∧ r' ≤ 1 → 0 ≤ s' ∧ s' ≤ 1 →
    ∀ P, e.2 r s = .ok P → e'.2 r' s' = .ok P →
      (e.1 = e'.1 ∧ r = r' ∧ s = s') ∨ (OnBorder r s ∧ OnBorder r' s')

/-- The surface of the axis-parallel cube of half-size `a` around `c`. -/
def OnCube (a : ℝ) (c P : V) : Prop :=
  |P.x - c.x| ≤ a ∧ |P.y - c.y| ≤ a ∧ |P.z - c.z| ≤ a ∧ (|P.x - c.x| = a ∨ |P.y - c.y| = a ∨ |P.z - c.z| = a)

/-- The sphere of radius `ρ` around `c`. -/
def OnSphere (ρ : ℝ) (c P : V) : Prop := (P.x - c.x) ^ 2 + (P.y - c.y) ^ 2 + (P.z - c.z) ^ 2 = ρ ^ 2

/-- The surface that the curve `f` sweeps on turning about the x axis. -/
def OnRevolved (f : ℝ → V) (P : V) : Prop :=
  ∃ t, (0 ≤ t ∧ t ≤ 1) ∧ P.x = (f t).x ∧ P.y ^ 2 + P.z ^ 2 = (f t).y ^ 2 + (f t).z ^ 2

end Spec
open Spec

/-- The surface of the cube `[-1,1]³`. -/
def OnUnit (p : V) : Prop := p.x ^ 2 ≤ 1 ∧ p.y ^ 2 ≤ 1 ∧ p.z ^ 2 ≤ 1 ∧ (p.x ^ 2 = 1 ∨ p.y ^ 2 = 1 ∨ p.z ^ 2 = 1)

theorem cubeFace_cases (f : String) (hf : f ∈ faceNames) (r s : ℝ) :
    (f = "east" ∧ cubeFace f r s = .ok ⟨1, -1 + 2 * r, -1 + 2 * s⟩) ∨ (f = "west" ∧ cubeFace f r s = .ok ⟨-1, -1 + 2 * r, -1 + 2 * s⟩) ∨
    (f = "south" ∧ cubeFace f r s = .ok ⟨-1 + 2 * r, -1, -1 + 2 * s⟩) ∨ (f = "north" ∧ cubeFace f r s = .ok ⟨-1 + 2 * r, 1, -1 + 2 * s⟩) ∨
    (f = "bottom" ∧ cubeFace f r s = .ok ⟨-1 + 2 * r, -1 + 2 * s, -1⟩) ∨ (f = "top" ∧ cubeFace f r s = .ok ⟨-1 + 2 * r, -1 + 2 * s, 1⟩) := by
  simp only [faceNames, List.mem_cons, List.not_mem_nil, or_false] at hf
  rcases hf with rfl | rfl | rfl | rfl | rfl | rfl <;> simp [cubeFace]

theorem par_sq (r : ℝ) (h : 0 ≤ r ∧ r ≤ 1) : (-1 + 2 * r) ^ 2 ≤ 1 := by nlinarith [h.1, h.2]

theorem cubeFace_within (f : String) (hf : f ∈ faceNames) (r s : ℝ) (hr : 0 ≤ r ∧ r ≤ 1) (hs : 0 ≤ s ∧ s ≤ 1) :
    ∃ p, cubeFace f r s = .ok p ∧ OnUnit p := by
  have h1 := par_sq r hr
  have h2 := par_sq s hs
  rcases cubeFace_cases f hf r s with ⟨-, h⟩ | ⟨-, h⟩ | ⟨-, h⟩ | ⟨-, h⟩ | ⟨-, h⟩ | ⟨-, h⟩ <;> refine ⟨_, h, ?_⟩ <;> unfold OnUnit <;>
    refine ⟨?_, ?_, ?_, ?_⟩ <;> norm_num <;> first | exact (sq_le_one_iff_abs_le_one _).1 h1 | exact (sq_le_one_iff_abs_le_one _).1 h2

theorem par_of_sq (y : ℝ) (h : y ^ 2 ≤ 1) : (0 ≤ (y + 1) / 2 ∧ (y + 1) / 2 ≤ 1) ∧ -1 + 2 * ((y + 1) / 2) = y := by
  have h1 : -1 ≤ y := by nlinarith
  have h2 : y ≤ 1 := by nlinarith
  refine ⟨⟨by linarith, by linarith⟩, by ring⟩

theorem sq_one {x : ℝ} (h : x ^ 2 = 1) : x = 1 ∨ x = -1 := by
  have : (x - 1) * (x + 1) = 0 := by linear_combination h
  rcases mul_eq_zero.1 this with h | h
  · left; linarith
  · right; linarith

theorem cubeFace_onto (p : V) (h : OnUnit p) :
    ∃ f ∈ faceNames, ∃ r s : ℝ, (0 ≤ r ∧ r ≤ 1) ∧ (0 ≤ s ∧ s ≤ 1) ∧ cubeFace f r s = .ok p := by
  obtain ⟨hx, hy, hz, h⟩ := h
  obtain ⟨hx1, hx2⟩ := par_of_sq _ hx
  obtain ⟨hy1, hy2⟩ := par_of_sq _ hy
  obtain ⟨hz1, hz2⟩ := par_of_sq _ hz
  obtain ⟨x, y, z⟩ := p
  simp only at *
  rcases h with h | h | h <;> rcases sq_one h with e | e
  · exact ⟨"east", by simp [faceNames], _, _, hy1, hz1, by simp [cubeFace, hy2, hz2, e]⟩
  · exact ⟨"west", by simp [faceNames], _, _, hy1, hz1, by simp [cubeFace, hy2, hz2, e]⟩
  · exact ⟨"north", by simp [faceNames], _, _, hx1, hz1, by simp [cubeFace, hx2, hz2, e]⟩
  · exact ⟨"south", by simp [faceNames], _, _, hx1, hz1, by simp [cubeFace, hx2, hz2, e]⟩
  · exact ⟨"top", by simp [faceNames], _, _, hx1, hy1, by simp [cubeFace, hx2, hy2, e]⟩
  · exact ⟨"bottom", by simp [faceNames], _, _, hx1, hy1, by simp [cubeFace, hx2, hy2, e]⟩

theorem cubeFace_once (f f' : String) (hf : f ∈ faceNames) (hf' : f' ∈ faceNames) (r s r' s' : ℝ) (p : V)
    (h : cubeFace f r s = .ok p) (h' : cubeFace f' r' s' = .ok p) :
    (f = f' ∧ r = r' ∧ s = s') ∨ (OnBorder r s ∧ OnBorder r' s') := by
  unfold OnBorder
  rcases cubeFace_cases f hf r s with ⟨rfl, k⟩ | ⟨rfl, k⟩ | ⟨rfl, k⟩ | ⟨rfl, k⟩ | ⟨rfl, k⟩ | ⟨rfl, k⟩ <;>
    rcases cubeFace_cases f' hf' r' s' with ⟨rfl, k'⟩ | ⟨rfl, k'⟩ | ⟨rfl, k'⟩ | ⟨rfl, k'⟩ | ⟨rfl, k'⟩ | ⟨rfl, k'⟩ <;>
    (rw [k] at h; rw [k'] at h'; rw [← h] at h'; injection h' with h'; simp only [Vec.mk.injEq] at h'; obtain ⟨h1, h2, h3⟩ := h') <;>
    first
    | exact Or.inl ⟨rfl, by linarith, by linarith⟩
    | (exfalso; linarith)
    | (right
       have e0 : ∀ t : ℝ, -1 = -1 + 2 * t → t = 0 := fun t h => by linarith
       have e1 : ∀ t : ℝ, 1 = -1 + 2 * t → t = 1 := fun t h => by linarith
       have e2 : ∀ t : ℝ, -1 + 2 * t = -1 → t = 0 := fun t h => by linarith
       have e3 : ∀ t : ℝ, -1 + 2 * t = 1 → t = 1 := fun t h => by linarith
       constructor
       · first
         | exact Or.inl (e0 _ h1) | exact Or.inl (e0 _ h2) | exact Or.inl (e0 _ h3)
         | exact Or.inr (Or.inl (e1 _ h1)) | exact Or.inr (Or.inl (e1 _ h2)) | exact Or.inr (Or.inl (e1 _ h3))
         | exact Or.inl (e2 _ h1) | exact Or.inl (e2 _ h2) | exact Or.inl (e2 _ h3)
         | exact Or.inr (Or.inl (e3 _ h1)) | exact Or.inr (Or.inl (e3 _ h2)) | exact Or.inr (Or.inl (e3 _ h3))
         | exact Or.inr (Or.inr (Or.inl (e0 _ h1))) | exact Or.inr (Or.inr (Or.inl (e0 _ h2))) | exact Or.inr (Or.inr (Or.inl (e0 _ h3)))
         | exact Or.inr (Or.inr (Or.inl (e2 _ h1))) | exact Or.inr (Or.inr (Or.inl (e2 _ h2))) | exact Or.inr (Or.inr (Or.inl (e2 _ h3)))
         | exact Or.inr (Or.inr (Or.inr (e1 _ h1))) | exact Or.inr (Or.inr (Or.inr (e1 _ h2))) | exact Or.inr (Or.inr (Or.inr (e1 _ h3)))
         | exact Or.inr (Or.inr (Or.inr (e3 _ h1))) | exact Or.inr (Or.inr (Or.inr (e3 _ h2))) | exact Or.inr (Or.inr (Or.inr (e3 _ h3)))
       · first
         | exact Or.inl (e0 _ h1) | exact Or.inl (e0 _ h2) | exact Or.inl (e0 _ h3)
         | exact Or.inr (Or.inl (e1 _ h1)) | exact Or.inr (Or.inl (e1 _ h2)) | exact Or.inr (Or.inl (e1 _ h3))
         | exact Or.inl (e2 _ h1) | exact Or.inl (e2 _ h2) | exact Or.inl (e2 _ h3)
         | exact Or.inr (Or.inl (e3 _ h1)) | exact Or.inr (Or.inl (e3 _ h2)) | exact Or.inr (Or.inl (e3 _ h3))
         | exact Or.inr (Or.inr (Or.inl (e0 _ h1))) | exact Or.inr (Or.inr (Or.inl (e0 _ h2))) | exact Or.inr (Or.inr (Or.inl (e0 _ h3)))
         | exact Or.inr (Or.inr (Or.inl (e2 _ h1))) | exact Or.inr (Or.inr (Or.inl (e2 _ h2))) | exact Or.inr (Or.inr (Or.inl (e2 _ h3)))
         | exact Or.inr (Or.inr (Or.inr (e1 _ h1))) | exact Or.inr (Or.inr (Or.inr (e1 _ h2))) | exact Or.inr (Or.inr (Or.inr (e1 _ h3)))
         | exact Or.inr (Or.inr (Or.inr (e3 _ h1))) | exact Or.inr (Or.inr (Or.inr (e3 _ h2))) | exact Or.inr (Or.inr (Or.inr (e3 _ h3))))

/-- Six faces carried by a map that is one-to-one from the surface of the cube `[-1,1]³` onto `S`. -/
theorem faces_cover (F : String → Surf) (G : V → V) (S : V → Prop)
    (hF : ∀ f r s p, cubeFace f r s = .ok p → OnUnit p → F f r s = .ok (G p))
    (hin : ∀ p, OnUnit p → S (G p)) (hon : ∀ P, S P → ∃ p, OnUnit p ∧ G p = P)
    (hinj : ∀ p q, OnUnit p → OnUnit q → G p = G q → p = q) : CoversOnce (faceNames.map fun f => (f, F f)) S := by
  refine ⟨?_, ?_, ?_⟩
  · intro e he r s hr hs
    obtain ⟨f, hf, rfl⟩ := List.mem_map.1 he
    obtain ⟨p, h1, h2⟩ := cubeFace_within f hf r s hr hs
    exact ⟨_, hF f r s p h1 h2, hin p h2⟩
  · intro P hP
    obtain ⟨p, h1, rfl⟩ := hon P hP
    obtain ⟨f, hf, r, s, hr, hs, h⟩ := cubeFace_onto p h1
    exact ⟨_, List.mem_map.2 ⟨f, hf, rfl⟩, r, s, hr, hs, hF f r s p h h1⟩
  · intro e he e' he' r s r' s' hr hs hr' hs' P h h'
    obtain ⟨f, hf, rfl⟩ := List.mem_map.1 he
    obtain ⟨f', hf', rfl⟩ := List.mem_map.1 he'
    obtain ⟨p, h1, h2⟩ := cubeFace_within f hf r s hr hs
    obtain ⟨q, k1, k2⟩ := cubeFace_within f' hf' r' s' hr' hs'
    simp only [hF f r s p h1 h2, Except.ok.injEq] at h
    simp only [hF f' r' s' q k1 k2, Except.ok.injEq] at h'
    have := hinj p q h2 k2 (h.trans h'.symm)
    subst this
    exact cubeFace_once f f' hf hf' r s r' s' p h1 k1

/-- The patches of a cube or sphere component after `generate_patches`. -/
theorem faces_generated (h : Heap) (id : ℕ) (F : String → Surf)
    (hgen : (h id).gen = .into fun _ => runSteps (faceNames.map fun f => .patch f (.ok (F f)))) (hp : (h id).patches = []) :
    ∃ h', generatePatches h id = (.ok (), h') ∧ (h' id).patches = faceNames.map fun f => (f, F f) := by
  have hsteps : runSteps (faceNames.map fun f => GenStep.patch f (.ok (F f))) =
      ⟨faceNames.map fun f => (f, F f), [], [], none⟩ := runSteps_patches faceNames (fun f => f) F
  refine ⟨h.upd id ((h id).genInto (runSteps (faceNames.map fun f => .patch f (.ok (F f))))).2, ?_, ?_⟩
  · simp only [generatePatches, Composite.genLeaf, hgen, Comp.genInto, hsteps]
  · rw [upd_self]
    simp only [Comp.genInto, hsteps, hp]
    exact Dict.setAll_nil_nodup _ (by simp [faceNames])

/-! ## Cubes -/

theorem abs_le_iff_sq {d a : ℝ} (ha : 0 < a) : |d| ≤ a ↔ (d / a) ^ 2 ≤ 1 := by
  rw [sq_le_one_iff_abs_le_one, abs_div, abs_of_pos ha, div_le_one ha]

theorem abs_eq_iff_sq {d a : ℝ} (ha : 0 < a) : |d| = a ↔ (d / a) ^ 2 = 1 := by
  rw [← sq_abs, abs_div, abs_of_pos ha]
  constructor
  · intro h; rw [h, div_self ha.ne', one_pow]
  · intro h
    have h0 : 0 ≤ |d| / a := by positivity
    rcases sq_one h with h | h
    · rwa [div_eq_one_iff_eq ha.ne'] at h
    · linarith

/-- C132 for cubes: the six patches of a generated `Cube` cover the surface of the cube around its centre, once. -/
theorem C132_cube (a : ℝ) (ha : 0 < a) (centre : V) (n : ℕ) (name : Option String) (h : Heap) (id : ℕ)
    (hid : h id = Cube a centre n name) :
    ∃ h', generatePatches h id = (.ok (), h') ∧ CoversOnce (h' id).patches (OnCube a centre) := by
  obtain ⟨h', h1, h2⟩ := faces_generated h id (CubePatch a centre) (by rw [hid]; rfl) (by rw [hid]; rfl)
  refine ⟨h', h1, ?_⟩
  rw [h2]
  have key : ∀ t c : ℝ, (t * a + c - c) / a = t := fun t c => by field_simp; ring
  refine faces_cover _ (fun p => ⟨p.x * a + centre.x, p.y * a + centre.y, p.z * a + centre.z⟩) _ ?_ ?_ ?_ ?_
  · intro f r s p hp _
    simp only [CubePatch, hp, bind, Except.bind, pure, Except.pure]
  · intro p hp
    unfold OnCube
    simp only [abs_le_iff_sq ha, abs_eq_iff_sq ha, key]
    exact hp
  · intro P hP
    unfold OnCube at hP
    simp only [abs_le_iff_sq ha, abs_eq_iff_sq ha] at hP
    refine ⟨⟨(P.x - centre.x) / a, (P.y - centre.y) / a, (P.z - centre.z) / a⟩, hP, ?_⟩
    obtain ⟨x, y, z⟩ := P
    simp only [Vec.mk.injEq]
    refine ⟨?_, ?_, ?_⟩ <;> field_simp <;> ring
  · intro p q _ _ e
    simp only [Vec.mk.injEq] at e
    obtain ⟨e1, e2, e3⟩ := e
    obtain ⟨x, y, z⟩ := p
    obtain ⟨x', y', z'⟩ := q
    simp only [Vec.mk.injEq]
    refine ⟨mul_right_cancel₀ ha.ne' ?_, mul_right_cancel₀ ha.ne' ?_, mul_right_cancel₀ ha.ne' ?_⟩ <;> linarith

/-! ## Spheres -/

/-- The factor of a coordinate in terms of the squares of the others. -/
noncomputable def sfac (b c : ℝ) : ℝ := 1 - b / 2 - c / 2 + b * c / 3

theorem sfac_pos {b c : ℝ} (hb : 0 ≤ b ∧ b ≤ 1) (hc : 0 ≤ c ∧ c ≤ 1) : 0 < sfac b c := by
  unfold sfac
  nlinarith [mul_nonneg (sub_nonneg.2 hb.2) (sub_nonneg.2 hc.2)]

theorem sfac_comm (b c : ℝ) : sfac b c = sfac c b := by unfold sfac; ring

/-- Squares of the coordinates of a point on the surface of the cube. -/
def Sq3 (a b c : ℝ) : Prop := (0 ≤ a ∧ a ≤ 1) ∧ (0 ≤ b ∧ b ≤ 1) ∧ (0 ≤ c ∧ c ≤ 1) ∧ (a = 1 ∨ b = 1 ∨ c = 1)

theorem sfac_inj_one {b c b' c' : ℝ} (hb : 0 ≤ b ∧ b ≤ 1) (hc : 0 ≤ c ∧ c ≤ 1) (hb' : 0 ≤ b' ∧ b' ≤ 1) (hc' : 0 ≤ c' ∧ c' ≤ 1)
    (h2 : b * sfac 1 c = b' * sfac 1 c') (h3 : c * sfac 1 b = c' * sfac 1 b') : b = b' ∧ c = c' := by
  unfold sfac at h2 h3
  have hd : b - c = b' - c' := by linear_combination 2 * h2 - 2 * h3
  have hk : (c - c') * (1 - (b + c') / 3) = 0 := by
    have : b' = b - c + c' := by linarith
    subst this
    linear_combination 2 * h3
  rcases mul_eq_zero.1 hk with h | h
  · exact ⟨by linarith, by linarith⟩
  · linarith [hb.2, hc'.2]

/-- If the squares of the images agree, the largest coordinates are at the same place. -/
theorem sfac_diff (a b c : ℝ) : a * sfac b c - b * sfac a c = (a - b) * (1 - c / 2) := by unfold sfac; ring

theorem sfac_inj_left {a b c a' b' c' : ℝ} (h : Sq3 a b c) (h' : Sq3 a' b' c') (ha : a = 1)
    (h1 : a * sfac b c = a' * sfac b' c') (h2 : b * sfac a c = b' * sfac a' c') (h3 : c * sfac a b = c' * sfac a' b') :
    a = a' ∧ b = b' ∧ c = c' := by
  obtain ⟨g1, g2, g3, -⟩ := h
  obtain ⟨k1, k2, k3, k⟩ := h'
  have ha' : a' = 1 := by
    rcases k with k | k | k
    · exact k
    · have e := sfac_diff a b c
      have e' := sfac_diff a' b' c'
      rw [h1, h2, e'] at e
      subst ha k
      have : 0 ≤ (1 - b) * (1 - c / 2) := mul_nonneg (by linarith) (by linarith)
      by_contra hne
      have : (a' - 1) * (1 - c' / 2) < 0 := mul_neg_of_neg_of_pos (by rcases lt_or_eq_of_le k1.2 with h | h; linarith; exact absurd h hne) (by linarith)
      linarith
    · have e := sfac_diff a c b
      have e' := sfac_diff a' c' b'
      rw [sfac_comm c b, sfac_comm c' b'] at *
      rw [h1, h3, e'] at e
      subst ha k
      have : 0 ≤ (1 - c) * (1 - b / 2) := mul_nonneg (by linarith) (by linarith)
      by_contra hne
      have : (a' - 1) * (1 - b' / 2) < 0 := mul_neg_of_neg_of_pos (by rcases lt_or_eq_of_le k1.2 with h | h; linarith; exact absurd h hne) (by linarith)
      linarith
  subst ha ha'
  exact ⟨rfl, sfac_inj_one g2 g3 k2 k3 h2 h3⟩

theorem sfac_inj {a b c a' b' c' : ℝ} (h : Sq3 a b c) (h' : Sq3 a' b' c')
    (h1 : a * sfac b c = a' * sfac b' c') (h2 : b * sfac a c = b' * sfac a' c') (h3 : c * sfac a b = c' * sfac a' b') :
    a = a' ∧ b = b' ∧ c = c' := by
  obtain ⟨g1, g2, g3, g⟩ := h
  obtain ⟨k1, k2, k3, k⟩ := h'
  rcases g with g | g | g
  · exact sfac_inj_left ⟨g1, g2, g3, .inl g⟩ ⟨k1, k2, k3, k⟩ g h1 h2 h3
  · obtain ⟨e1, e2, e3⟩ := sfac_inj_left (a := b) (b := a) (c := c) (a' := b') (b' := a') (c' := c') ⟨g2, g1, g3, .inl g⟩
      ⟨k2, k1, k3, by tauto⟩ g h2 h1 (by rw [sfac_comm b a, sfac_comm b' a']; exact h3)
    exact ⟨e2, e1, e3⟩
  · obtain ⟨e1, e2, e3⟩ := sfac_inj_left (a := c) (b := b) (c := a) (a' := c') (b' := b') (c' := a') ⟨g3, g2, g1, .inl g⟩
      ⟨k3, k2, k1, by tauto⟩ g (by rw [sfac_comm b a, sfac_comm b' a']; exact h3) (by rw [sfac_comm c a, sfac_comm c' a']; exact h2)
      (by rw [sfac_comm c b, sfac_comm c' b']; exact h1)
    exact ⟨e3, e2, e1⟩

theorem sfac_onto_sorted {A B C : ℝ} (hC : 0 ≤ C) (hBC : C ≤ B) (hAB : B ≤ A) (hs : A + B + C = 1) :
    ∃ b c, (0 ≤ b ∧ b ≤ 1) ∧ (0 ≤ c ∧ c ≤ 1) ∧ sfac b c = A ∧ b * sfac 1 c = B ∧ c * sfac 1 b = C := by
  set δ := 2 * (B - C) with hδ
  have hδ1 : δ ≤ 1 := by linarith
  have hcont : ContinuousOn (fun c : ℝ => c / 2 - c * (c + δ) / 6) (Set.Icc 0 (1 - δ)) := by fun_prop
  have hmem : C ∈ Set.Icc ((fun c : ℝ => c / 2 - c * (c + δ) / 6) 0) ((fun c : ℝ => c / 2 - c * (c + δ) / 6) (1 - δ)) := by
    constructor
    · simp; exact hC
    · simp only; nlinarith
  obtain ⟨c, hc, e⟩ := intermediate_value_Icc (by linarith) hcont hmem
  simp only at e
  have e3 : c * sfac 1 (c + δ) = C := by unfold sfac; rw [← e]; ring
  have e2 : (c + δ) * sfac 1 c = B := by
    unfold sfac
    have : δ / 2 = B - C := by rw [hδ]; ring
    linear_combination e + this
  refine ⟨c + δ, c, ⟨by linarith [hc.1], by linarith [hc.2]⟩, ⟨hc.1, by linarith [hc.2]⟩, ?_, e2, e3⟩
  unfold sfac at *
  linear_combination -hs - e2 - e3

theorem sfac_onto_left {A B C : ℝ} (hB : 0 ≤ B) (hC : 0 ≤ C) (hAB : B ≤ A) (hAC : C ≤ A) (hs : A + B + C = 1) :
    ∃ b c, (0 ≤ b ∧ b ≤ 1) ∧ (0 ≤ c ∧ c ≤ 1) ∧ sfac b c = A ∧ b * sfac 1 c = B ∧ c * sfac 1 b = C := by
  rcases le_total C B with h | h
  · exact sfac_onto_sorted hC h hAB hs
  · obtain ⟨c, b, h1, h2, h3, h4, h5⟩ := sfac_onto_sorted hB h hAC (by linarith : A + C + B = 1)
    exact ⟨b, c, h2, h1, by rw [sfac_comm]; exact h3, h5, h4⟩

theorem sfac_onto {A B C : ℝ} (hA : 0 ≤ A) (hB : 0 ≤ B) (hC : 0 ≤ C) (hs : A + B + C = 1) :
    ∃ a b c, Sq3 a b c ∧ a * sfac b c = A ∧ b * sfac a c = B ∧ c * sfac a b = C := by
  have h01 : (0 : ℝ) ≤ 1 ∧ (1 : ℝ) ≤ 1 := ⟨zero_le_one, le_rfl⟩
  rcases le_total B A with h | h
  · rcases le_total C A with h' | h'
    · obtain ⟨b, c, k1, k2, k3, k4, k5⟩ := sfac_onto_left hB hC h h' hs
      exact ⟨1, b, c, ⟨h01, k1, k2, .inl rfl⟩, by rw [one_mul]; exact k3, k4, k5⟩
    · obtain ⟨a, b, k1, k2, k3, k4, k5⟩ := sfac_onto_left hA hB h' (h.trans h') (by linarith : C + A + B = 1)
      exact ⟨a, b, 1, ⟨k1, k2, h01, .inr (.inr rfl)⟩, by rw [sfac_comm]; exact k4, by rw [sfac_comm]; exact k5, by rw [one_mul]; exact k3⟩
  · rcases le_total C B with h' | h'
    · obtain ⟨a, c, k1, k2, k3, k4, k5⟩ := sfac_onto_left hA hC h h' (by linarith : B + A + C = 1)
      exact ⟨a, 1, c, ⟨k1, h01, k2, .inr (.inl rfl)⟩, k4, by rw [one_mul]; exact k3, by rw [sfac_comm]; exact k5⟩
    · obtain ⟨a, b, k1, k2, k3, k4, k5⟩ := sfac_onto_left hA hB (h.trans h') h' (by linarith : C + A + B = 1)
      exact ⟨a, b, 1, ⟨k1, k2, h01, .inr (.inr rfl)⟩, by rw [sfac_comm]; exact k4, by rw [sfac_comm]; exact k5, by rw [one_mul]; exact k3⟩

/-- The point of the unit sphere for a point of the cube surface. -/
noncomputable def toSphere (p : V) : V :=
  ⟨p.x * √(sfac (p.y ^ 2) (p.z ^ 2)), p.y * √(sfac (p.x ^ 2) (p.z ^ 2)), p.z * √(sfac (p.x ^ 2) (p.y ^ 2))⟩

theorem OnUnit.sq3 {p : V} (h : OnUnit p) : Sq3 (p.x ^ 2) (p.y ^ 2) (p.z ^ 2) :=
  ⟨⟨sq_nonneg _, h.1⟩, ⟨sq_nonneg _, h.2.1⟩, ⟨sq_nonneg _, h.2.2.1⟩, h.2.2.2⟩

theorem sfac_sum {a b c : ℝ} (h : Sq3 a b c) : a * sfac b c + b * sfac a c + c * sfac a b = 1 := by
  unfold sfac
  rcases h.2.2.2 with e | e | e <;> subst e <;> ring

theorem coord_sq {t S : ℝ} (hS : 0 < S) : (t * √S) ^ 2 = t ^ 2 * S := by rw [mul_pow, Real.sq_sqrt hS.le]

theorem toSphere_sum {p : V} (h : OnUnit p) : (toSphere p).x ^ 2 + (toSphere p).y ^ 2 + (toSphere p).z ^ 2 = 1 := by
  have k := h.sq3
  unfold toSphere
  simp only [coord_sq (sfac_pos k.2.1 k.2.2.1), coord_sq (sfac_pos k.1 k.2.2.1), coord_sq (sfac_pos k.1 k.2.1)]
  exact sfac_sum k

theorem coord_inj {t t' S S' : ℝ} (hS : 0 < S) (hS' : 0 < S') (h : t * √S = t' * √S') (hq : t ^ 2 = t' ^ 2) : t = t' := by
  rcases sq_eq_sq_iff_eq_or_eq_neg.1 hq with e | e
  · exact e
  · subst e
    have h1 := Real.sqrt_pos.2 hS
    have h2 := Real.sqrt_pos.2 hS'
    have : t' * (√S + √S') = 0 := by linear_combination -h
    rcases mul_eq_zero.1 this with h | h
    · rw [h]; simp
    · linarith

theorem toSphere_inj {p q : V} (h : OnUnit p) (h' : OnUnit q) (e : toSphere p = toSphere q) : p = q := by
  have k := h.sq3
  have k' := h'.sq3
  have e1 := congrArg Vec.x e
  have e2 := congrArg Vec.y e
  have e3 := congrArg Vec.z e
  simp only [toSphere] at e1 e2 e3
  have s1 := congrArg (· ^ 2) e1
  have s2 := congrArg (· ^ 2) e2
  have s3 := congrArg (· ^ 2) e3
  simp only [coord_sq (sfac_pos k.2.1 k.2.2.1), coord_sq (sfac_pos k.1 k.2.2.1), coord_sq (sfac_pos k.1 k.2.1),
    coord_sq (sfac_pos k'.2.1 k'.2.2.1), coord_sq (sfac_pos k'.1 k'.2.2.1), coord_sq (sfac_pos k'.1 k'.2.1)] at s1 s2 s3
  obtain ⟨q1, q2, q3⟩ := sfac_inj k k' s1 s2 s3
  have r1 := coord_inj (sfac_pos k.2.1 k.2.2.1) (sfac_pos k'.2.1 k'.2.2.1) e1 q1
  have r2 := coord_inj (sfac_pos k.1 k.2.2.1) (sfac_pos k'.1 k'.2.2.1) e2 q2
  have r3 := coord_inj (sfac_pos k.1 k.2.1) (sfac_pos k'.1 k'.2.1) e3 q3
  obtain ⟨x, y, z⟩ := p
  obtain ⟨x', y', z'⟩ := q
  simp only at r1 r2 r3
  rw [r1, r2, r3]

theorem coord_onto {a S X : ℝ} (ha : 0 ≤ a) (hS : 0 < S) (h : a * S = X ^ 2) : ∃ t, t ^ 2 = a ∧ t * √S = X := by
  have e : √a * √S = |X| := by rw [← Real.sqrt_mul ha, h, Real.sqrt_sq_eq_abs]
  rcases le_total 0 X with hX | hX
  · exact ⟨√a, Real.sq_sqrt ha, by rw [e, abs_of_nonneg hX]⟩
  · exact ⟨-√a, by rw [neg_sq, Real.sq_sqrt ha], by rw [neg_mul, e, abs_of_nonpos hX, neg_neg]⟩

theorem toSphere_onto (P : V) (h : P.x ^ 2 + P.y ^ 2 + P.z ^ 2 = 1) : ∃ p, OnUnit p ∧ toSphere p = P := by
  obtain ⟨a, b, c, k, h1, h2, h3⟩ := sfac_onto (sq_nonneg P.x) (sq_nonneg P.y) (sq_nonneg P.z) h
  obtain ⟨x, x1, x2⟩ := coord_onto k.1.1 (sfac_pos k.2.1 k.2.2.1) h1
  obtain ⟨y, y1, y2⟩ := coord_onto k.2.1.1 (sfac_pos k.1 k.2.2.1) h2
  obtain ⟨z, z1, z2⟩ := coord_onto k.2.2.1.1 (sfac_pos k.1 k.2.1) h3
  refine ⟨⟨x, y, z⟩, ?_, ?_⟩
  · unfold OnUnit
    simp only [x1, y1, z1]
    exact ⟨k.1.2, k.2.1.2, k.2.2.1.2, k.2.2.2⟩
  · unfold toSphere
    simp only [x1, y1, z1, x2, y2, z2]

/-- C132 for spheres: the six patches of a generated `Sphere` cover the sphere around its centre, once. -/
theorem C132_sphere (ρ : ℝ) (hρ : 0 < ρ) (centre : V) (n : ℕ) (name : Option String) (h : Heap) (id : ℕ)
    (hid : h id = Sphere ρ centre n name) :
    ∃ h', generatePatches h id = (.ok (), h') ∧ CoversOnce (h' id).patches (OnSphere ρ centre) := by
  obtain ⟨h', h1, h2⟩ := faces_generated h id (SpherePatch ρ centre) (by rw [hid]; rfl) (by rw [hid]; rfl)
  refine ⟨h', h1, ?_⟩
  rw [h2]
  refine faces_cover _ (fun p => ⟨(toSphere p).x * ρ + centre.x, (toSphere p).y * ρ + centre.y, (toSphere p).z * ρ + centre.z⟩) _ ?_ ?_ ?_ ?_
  · intro f r s p hp hu
    have e : ∀ y z : ℝ, 1 - 0.5 * z * z - 0.5 * y * y + y * y * z * z / 3 = sfac (y ^ 2) (z ^ 2) := fun y z => by unfold sfac; ring
    have k := hu.sq3
    simp only [SpherePatch, hp, bind, Except.bind, pure, Except.pure, psqrt, e, not_lt.2 (sfac_pos k.2.1 k.2.2.1).le,
      not_lt.2 (sfac_pos k.1 k.2.2.1).le, not_lt.2 (sfac_pos k.1 k.2.1).le, if_false, toSphere]
  · intro p hp
    unfold OnSphere
    linear_combination ρ ^ 2 * toSphere_sum hp
  · intro P hP
    unfold OnSphere at hP
    obtain ⟨p, hp, e⟩ := toSphere_onto ⟨(P.x - centre.x) / ρ, (P.y - centre.y) / ρ, (P.z - centre.z) / ρ⟩ (by
      simp only [div_pow, ← add_div]
      rw [hP, div_self (by positivity)])
    refine ⟨p, hp, ?_⟩
    obtain ⟨x, y, z⟩ := P
    simp only [e, Vec.mk.injEq]
    refine ⟨?_, ?_, ?_⟩ <;> field_simp <;> ring
  · intro p q hp hq e
    simp only [Vec.mk.injEq] at e
    obtain ⟨e1, e2, e3⟩ := e
    refine toSphere_inj hp hq ?_
    rcases hu : toSphere p with ⟨x, y, z⟩
    rcases hv : toSphere q with ⟨x', y', z'⟩
    simp only [hu, hv] at e1 e2 e3
    simp only [Vec.mk.injEq]
    refine ⟨mul_right_cancel₀ hρ.ne' ?_, mul_right_cancel₀ hρ.ne' ?_, mul_right_cancel₀ hρ.ne' ?_⟩ <;> linarith

/-! ## Bodies of revolution -/

/-- A turn that leaves a point other than the origin of the plane in place is a whole number of turns. -/
theorem turn_inj {y z a b : ℝ} (h : 0 < y ^ 2 + z ^ 2) (h1 : y * Real.cos a + z * Real.sin a = y * Real.cos b + z * Real.sin b)
    (h2 : z * Real.cos a - y * Real.sin a = z * Real.cos b - y * Real.sin b) : ∃ k : ℤ, b = a + 2 * k * Real.pi := by
  have hc : Real.cos a = Real.cos b := by
    apply mul_left_cancel₀ h.ne'
    linear_combination y * h1 + z * h2
  have hs : Real.sin a = Real.sin b := by
    apply mul_left_cancel₀ h.ne'
    linear_combination z * h1 - y * h2
  have : Real.cos (b - a) = 1 := by rw [Real.cos_sub, ← hc, ← hs]; nlinarith [Real.sin_sq_add_cos_sq a]
  obtain ⟨k, hk⟩ := (Real.cos_eq_one_iff _).1 this
  exact ⟨k, by linarith⟩

/-- Equal angles on two quarters, up to whole turns. -/
theorem quarter_once {i j : ℕ} (hi : i < 4) (hj : j < 4) {s s' : ℝ} (hs : 0 ≤ s ∧ s ≤ 1) (hs' : 0 ≤ s' ∧ s' ≤ 1) (k : ℤ)
    (h : (i : ℝ) + s = (j : ℝ) + s' + 4 * k) : (i = j ∧ s = s') ∨ ((s = 0 ∨ s = 1) ∧ (s' = 0 ∨ s' = 1)) := by
  by_cases hst : s = s'
  · subst hst
    have hz : (i : ℤ) = j + 4 * k := by
      have : (i : ℝ) = j + 4 * k := by linarith
      exact_mod_cast this
    exact .inl ⟨by omega, rfl⟩
  · right
    obtain ⟨m, hm⟩ : ∃ m : ℤ, m = j + 4 * k - i := ⟨_, rfl⟩
    have hd : s - s' = m := by rw [hm]; push_cast; linarith
    have hb1 : (m : ℝ) ≤ 1 := by rw [← hd]; linarith [hs.2, hs'.1]
    have hb2 : (-1 : ℝ) ≤ m := by rw [← hd]; linarith [hs.1, hs'.2]
    have c1 : m ≤ 1 := by exact_mod_cast hb1
    have c2 : -1 ≤ m := by exact_mod_cast hb2
    have c3 : m ≠ 0 := by
      intro h0
      rw [h0] at hd
      apply hst
      push_cast at hd; linarith
    have : m = 1 ∨ m = -1 := by omega
    rcases this with h0 | h0 <;> rw [h0] at hd <;> push_cast at hd
    · exact ⟨.inr (by linarith [hs.2, hs'.1]), .inl (by linarith [hs.2, hs'.1])⟩
    · exact ⟨.inl (by linarith [hs.1, hs'.2]), .inr (by linarith [hs.1, hs'.2])⟩

/-- C132 for bodies of revolution: if the profile meets the axis only at its ends and does not repeat a pair of length and
radius except at its ends, the four patches of a generated `RevolvedComponent` cover the surface swept by the profile, once. -/
theorem C132_revolved (line : PathObj) (f : ℝ → V) (hl : ∀ t, 0 ≤ t → t ≤ 1 → line.call t = .ok (f t))
    (hpos : ∀ t, 0 < t → t < 1 → 0 < (f t).y ^ 2 + (f t).z ^ 2)
    (hinj : ∀ t u, 0 ≤ t → t ≤ 1 → 0 ≤ u → u ≤ 1 → (f t).x = (f u).x → (f t).y ^ 2 + (f t).z ^ 2 = (f u).y ^ 2 + (f u).z ^ 2 →
      t = u ∨ ((t = 0 ∨ t = 1) ∧ (u = 0 ∨ u = 1)))
    (n : ℕ) (name : Option String) (h : Heap) (id : ℕ) (hid : h id = RevolvedComponent line n name) :
    ∃ h', generatePatches h id = (.ok (), h') ∧ CoversOnce (h' id).patches (OnRevolved f) := by
  have hpi := Real.pi_pos
  have hsteps : runSteps ((List.range 4).map fun (i : ℕ) => GenStep.patch ("revolved_fuse_" ++ toString i)
      (.ok (RevolvedPatch line (i * Real.pi / 2) (((i : ℝ) + 1) * Real.pi / 2)))) =
      ⟨(List.range 4).map fun (i : ℕ) => ("revolved_fuse_" ++ toString i,
        RevolvedPatch line (i * Real.pi / 2) (((i : ℝ) + 1) * Real.pi / 2)), [], [], none⟩ :=
    runSteps_patches (List.range 4) (fun i => "revolved_fuse_" ++ toString i)
      (fun (i : ℕ) => RevolvedPatch line (i * Real.pi / 2) (((i : ℝ) + 1) * Real.pi / 2))
  set items : List (String × Surf) := (List.range 4).map fun (i : ℕ) => ("revolved_fuse_" ++ toString i,
        RevolvedPatch line (i * Real.pi / 2) (((i : ℝ) + 1) * Real.pi / 2)) with hitems
  have hnd : (items.map Prod.fst).Nodup := by rw [hitems, List.map_map]; exact prefix_ix_nodup _ 4
  have hg : generatePatches h id = (.ok (), h.upd id { RevolvedComponent line n name with patches := items }) := by
    simp only [generatePatches, Composite.genLeaf, hid, RevolvedComponent, Comp.genInto, hsteps]
    rw [show Dict.setAll [] items = items from Dict.setAll_nil_nodup _ hnd]
    rfl
  refine ⟨_, hg, ?_⟩
  rw [upd_self]
  have ang : ∀ (k : ℕ) (s : ℝ), (k : ℝ) * Real.pi / 2 * (1 - s) + ((k : ℝ) + 1) * Real.pi / 2 * s = ((k : ℝ) + s) * (Real.pi / 2) :=
    fun k s => by ring
  refine ⟨?_, ?_, ?_⟩
  · intro e he r s hr hs
    obtain ⟨k, hk, rfl⟩ := List.mem_map.1 he
    refine ⟨_, RevolvedPatch_eq line _ _ r s _ (hl r hr.1 hr.2), r, hr, rfl, ?_⟩
    simp only
    generalize (k * Real.pi / 2 * (1 - s) + ((k : ℝ) + 1) * Real.pi / 2 * s) = a
    have := Real.sin_sq_add_cos_sq a
    linear_combination ((f r).y ^ 2 + (f r).z ^ 2) * this
  · rintro P ⟨t, ht, hx, hyz⟩
    obtain ⟨a, ha, ha2, h1, h2⟩ := exists_turn _ _ _ _ hyz
    have hq : 0 ≤ a / (Real.pi / 2) := by positivity
    set k := ⌊a / (Real.pi / 2)⌋₊ with hk
    have hk4 : k < 4 := by
      rw [hk, Nat.floor_lt hq, div_lt_iff₀ (by positivity)]
      push_cast; linarith
    have hk1 := Nat.floor_le hq
    have hk2 := Nat.lt_floor_add_one (a / (Real.pi / 2))
    rw [← hk] at hk1 hk2
    refine ⟨_, List.mem_map.2 ⟨k, List.mem_range.2 hk4, rfl⟩, t, a / (Real.pi / 2) - k, ht, ⟨by linarith, by linarith⟩, ?_⟩
    have e : ((k : ℝ) * Real.pi / 2) * (1 - (a / (Real.pi / 2) - k)) + ((k : ℝ) + 1) * Real.pi / 2 * (a / (Real.pi / 2) - k) = a := by
      field_simp; ring
    simp only [RevolvedPatch_eq line _ _ t _ _ (hl t ht.1 ht.2), e, ← h1, ← h2, ← hx]
  · intro e he e' he' r s r' s' hr hs hr' hs' P hP hP'
    obtain ⟨i, hi, rfl⟩ := List.mem_map.1 he
    obtain ⟨j, hj, rfl⟩ := List.mem_map.1 he'
    have hi4 := List.mem_range.1 hi
    have hj4 := List.mem_range.1 hj
    simp only [RevolvedPatch_eq line _ _ r s _ (hl r hr.1 hr.2), ang, Except.ok.injEq] at hP
    simp only [RevolvedPatch_eq line _ _ r' s' _ (hl r' hr'.1 hr'.2), ang, Except.ok.injEq] at hP'
    rw [← hP, Vec.mk.injEq] at hP'
    obtain ⟨e1, e2, e3⟩ := hP'
    have hrad : (f r).y ^ 2 + (f r).z ^ 2 = (f r').y ^ 2 + (f r').z ^ 2 := by
      have t1 := Real.sin_sq_add_cos_sq (((i : ℝ) + s) * (Real.pi / 2))
      have t2 := Real.sin_sq_add_cos_sq (((j : ℝ) + s') * (Real.pi / 2))
      have q2 := congrArg (fun u => u ^ 2) e2
      have q3 := congrArg (fun u => u ^ 2) e3
      generalize Real.sin (((i : ℝ) + s) * (Real.pi / 2)) = a1 at t1 q2 q3
      generalize Real.cos (((i : ℝ) + s) * (Real.pi / 2)) = a2 at t1 q2 q3
      generalize Real.sin (((j : ℝ) + s') * (Real.pi / 2)) = b1 at t2 q2 q3
      generalize Real.cos (((j : ℝ) + s') * (Real.pi / 2)) = b2 at t2 q2 q3
      linear_combination -q2 - q3 - ((f r).y ^ 2 + (f r).z ^ 2) * t1 + ((f r').y ^ 2 + (f r').z ^ 2) * t2
    unfold OnBorder
    rcases hinj r r' hr.1 hr.2 hr'.1 hr'.2 e1.symm hrad with rfl | ⟨b1, b2⟩
    swap
    · exact .inr ⟨b1.imp (fun h => h) .inl, b2.imp (fun h => h) .inl⟩
    by_cases hb : r = 0 ∨ r = 1
    · exact .inr ⟨hb.imp (fun h => h) .inl, hb.imp (fun h => h) .inl⟩
    have hp := hpos r (lt_of_le_of_ne hr.1 fun h => hb (.inl h.symm)) (lt_of_le_of_ne hr.2 fun h => hb (.inr h))
    obtain ⟨k, hk⟩ := turn_inj hp e2.symm e3.symm
    have hk' : (j : ℝ) + s' = (i : ℝ) + s + 4 * (k : ℝ) := by
      apply mul_right_cancel₀ (by positivity : Real.pi / 2 ≠ 0)
      linear_combination hk
    rcases quarter_once hj4 hi4 hs' hs k hk' with ⟨q1, q2⟩ | ⟨q1, q2⟩
    · exact .inl ⟨by rw [q1], rfl, q2.symm⟩
    · exact .inr ⟨.inr (.inr q2), .inr (.inr q1)⟩

/-- Witnesses: a cube and a sphere of size 2 about a point. -/
example (n : ℕ) : ∃ h', generatePatches (fun _ => Cube 2 ⟨1, 0, 3⟩ n) 0 = (.ok (), h') ∧ CoversOnce (h' 0).patches (OnCube 2 ⟨1, 0, 3⟩) :=
  C132_cube 2 two_pos _ n none _ 0 rfl
example (n : ℕ) : ∃ h', generatePatches (fun _ => Sphere 2 ⟨1, 0, 3⟩ n) 0 = (.ok (), h') ∧
    CoversOnce (h' 0).patches (OnSphere 2 ⟨1, 0, 3⟩) := C132_sphere 2 two_pos _ n none _ 0 rfl

/-- Witness: a cone standing on its tip. -/
example (n : ℕ) : ∃ h', generatePatches (fun _ => RevolvedComponent (Line ⟨0, 0, 0⟩ ⟨1, 1, 0⟩) n) 0 = (.ok (), h') ∧
    CoversOnce (h' 0).patches (OnRevolved fun t => ⟨t, t, 0⟩) := by
  refine C132_revolved _ _ ?_ ?_ ?_ n none _ 0 rfl
  · intro t h0 h1
    simp only [Line, lineAt, Except.ok.injEq]; ext <;> simp
  · intro t h0 h1
    simp only; positivity
  · intro t u _ _ _ _ h _
    exact .inl h

end HV
