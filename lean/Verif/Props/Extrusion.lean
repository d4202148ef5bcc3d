import Verif.Props.Swept
import Verif.Lemmas.Volume

/-!
# C96: the volume of extruded sections
-/

namespace HV
open Spec

/-- The sections are copies of one section: edge `ne` of every section runs through `(x ne t, y ne t)`, at the height of the
section. -/
def Spec.Extrusion (S : List (List PathObj)) (x y : ℕ → ℝ → ℝ) (zs : List ℝ) : Prop :=
  List.Forall₂ (fun cs z => cs.length = 4 ∧ ∀ (ne : ℕ) (e : PathObj), cs[ne]? = some e →
    ∀ t : ℝ, 0 ≤ t → t ≤ 1 → e.call t = .ok ⟨x ne t, y ne t, z⟩) S zs

/-- Twice the signed area of the polygon through `n` equidistant points on each of the four edges (the shoelace formula):
positive when the section runs counterclockwise seen from positive `z`. -/
noncomputable def Spec.polygonArea2 (x y : ℕ → ℝ → ℝ) (n : ℕ) : ℝ :=
  ∑ ne ∈ Finset.range 4, ∑ j ∈ Finset.range n,
    (x ne ((j : ℝ) / n) * y ne (((j + 1 : ℕ) : ℝ) / n) - y ne ((j : ℝ) / n) * x ne (((j + 1 : ℕ) : ℝ) / n))

/-- Every parameter in the unit interval lies between two consecutive sections. -/
theorem between_sections (K : ℕ) (h2 : 2 ≤ K) (r : ℝ) (h0 : 0 ≤ r) (h1 : r ≤ 1) :
    ∃ (i : ℕ) (α : ℝ), i + 1 < K ∧ 0 ≤ α ∧ α ≤ 1 ∧ r = ((i : ℝ) + α) / ((K : ℝ) - 1) := by
  have hn : (0 : ℝ) < (K : ℝ) - 1 := by
    have : (2 : ℝ) ≤ K := by exact_mod_cast h2
    linarith
  have hx0 : 0 ≤ r * ((K : ℝ) - 1) := by positivity
  set x := r * ((K : ℝ) - 1) with hx
  have hr : r = x / ((K : ℝ) - 1) := by rw [hx]; field_simp
  have hxn : x ≤ (K : ℝ) - 1 := by rw [hx]; nlinarith
  rcases Nat.lt_or_ge (⌊x⌋₊ + 1) K with hlt | hge
  · exact ⟨⌊x⌋₊, x - ⌊x⌋₊, hlt, sub_nonneg.2 (Nat.floor_le hx0), by linarith [Nat.lt_floor_add_one x],
      by rw [add_sub_cancel, ← hr]⟩
  · have hfl : (⌊x⌋₊ : ℝ) ≤ x := Nat.floor_le hx0
    have hge' : (K : ℝ) ≤ (⌊x⌋₊ : ℝ) + 1 := by exact_mod_cast hge
    refine ⟨K - 2, 1, by omega, zero_le_one, le_rfl, ?_⟩
    rw [hr, Nat.cast_sub (by omega)]
    congr 1
    push_cast
    linarith

/-- The height of the swept surface at sweep parameter `r`. -/
theorem extrusion_height (zs : List ℝ) (h2 : 2 ≤ zs.length) (r : ℝ) (h0 : 0 ≤ r) (h1 : r ≤ 1) : ∃ z : ℝ,
    ∀ (es : List PathObj) (s a b : ℝ), List.Forall₂ (fun e z => e.call s = .ok ⟨a, b, z⟩) es zs →
      SweptPatchfromEdges es r s = .ok ⟨a, b, z⟩ := by
  obtain ⟨i, α, hi, a0, a1, rfl⟩ := between_sections zs.length h2 r h0 h1
  refine ⟨(1 - α) * zs[i]'(by omega) + α * zs[i + 1], ?_⟩
  intro es s a b h
  have hlen := h.length_eq
  have hget := (List.forall₂_iff_get.1 h).2
  obtain ⟨q, hq, hv⟩ := C30_between es i (by omega) α a0 a1 s _ _ (hget i (by omega) (by omega))
    (hget (i + 1) (by omega) (by omega))
  rw [hlen] at hq
  rw [hq]
  congr 1
  apply Vec.toE_injective
  rw [hv, ← Vec.toE_mul, ← Vec.toE_mul, ← Vec.toE_add]
  congr 1
  ext <;> simp <;> ring

section
variable {S : List (List PathObj)} {x y : ℕ → ℝ → ℝ} {zs : List ℝ}

theorem Spec.Extrusion.at (h : Extrusion S x y zs) : ∀ (k : ℕ) (h1 : k < S.length) (h2 : k < zs.length),
    S[k].length = 4 ∧ ∀ (ne : ℕ) (e : PathObj), S[k][ne]? = some e → ∀ t : ℝ, 0 ≤ t → t ≤ 1 →
      e.call t = .ok ⟨x ne t, y ne t, zs[k]⟩ := (List.forall₂_iff_get.1 h).2

theorem Spec.Extrusion.length (h : Extrusion S x y zs) : S.length = zs.length := List.Forall₂.length_eq h

theorem Spec.Extrusion.len (h : Extrusion S x y zs) : ∀ cs ∈ S, cs.length = 4 := by
  intro cs hcs
  obtain ⟨k, hk, rfl⟩ := List.mem_iff_getElem.1 hcs
  exact (h.at k hk (by rw [← h.length]; exact hk)).1

theorem Spec.Extrusion.total (h : Extrusion S x y zs) : EdgesTotal S := by
  intro cs hcs e he t t0 t1
  obtain ⟨k, hk, rfl⟩ := List.mem_iff_getElem.1 hcs
  obtain ⟨j, hj, rfl⟩ := List.mem_iff_getElem.1 he
  exact ⟨_, (h.at k hk (by rw [← h.length]; exact hk)).2 j _ (List.getElem?_eq_getElem hj) t t0 t1⟩

theorem Spec.Extrusion.closed (h : Extrusion S x y zs)
    (hc : ∀ ne < 4, x ne 1 = x ((ne + 1) % 4) 0 ∧ y ne 1 = y ((ne + 1) % 4) 0) : ExactlyClosed S := by
  intro cs hcs i e e' he he'
  have h4 := h.len cs hcs
  obtain ⟨k, hk, rfl⟩ := List.mem_iff_getElem.1 hcs
  have hh := (h.at k hk (by rw [← h.length]; exact hk)).2
  have hi : i < 4 := by rw [← h4]; exact (List.getElem?_eq_some_iff.1 he).1
  rw [h4] at he'
  rw [hh i e he 1 zero_le_one le_rfl, hh _ e' he' 0 le_rfl zero_le_one, (hc i hi).1, (hc i hi).2]

/-- The points of an edge of a section. -/
theorem Spec.Extrusion.edge (h : Extrusion S x y zs) (k : ℕ) (cs : List PathObj) (hk : S[k]? = some cs) (ne : ℕ) (hne : ne < 4)
    (t : ℝ) (t0 : 0 ≤ t) (t1 : t ≤ 1) : ∃ z, zs[k]? = some z ∧ (edgeOf ne cs).call t = .ok ⟨x ne t, y ne t, z⟩ := by
  obtain ⟨hk', rfl⟩ := List.getElem?_eq_some_iff.1 hk
  have hz : k < zs.length := by rw [← h.length]; exact hk'
  have hh := h.at k hk' hz
  exact ⟨zs[k], List.getElem?_eq_getElem hz, hh.2 ne _ (getElem?_edgeOf (by rw [h.len _ (List.getElem_mem hk')]; exact hne)) t t0 t1⟩

/-- The points of the swept walls. -/
theorem Spec.Extrusion.grid (h : Extrusion S x y zs) (h2 : 2 ≤ S.length) (n : ℕ) (hn : 1 ≤ n) : ∃ z : ℕ → ℝ,
    ∀ ne < 4, ∀ i ≤ n, ∀ j ≤ n, sweptGrid S n ne i j = ⟨x ne ((j : ℝ) / n), y ne ((j : ℝ) / n), z i⟩ := by
  have hz : ∀ i : ℕ, ∃ z : ℝ, i ≤ n → ∀ ne < 4, ∀ j ≤ n, sweptGrid S n ne i j = ⟨x ne ((j : ℝ) / n), y ne ((j : ℝ) / n), z⟩ := by
    intro i
    by_cases hi : i ≤ n
    · obtain ⟨a1, a2⟩ := unit_div n i hn hi
      obtain ⟨z, hz⟩ := extrusion_height zs (by rw [← h.length]; exact h2) _ a1 a2
      refine ⟨z, fun _ ne hne j hj => ?_⟩
      obtain ⟨b1, b2⟩ := unit_div n j hn hj
      unfold sweptGrid
      rw [hz (S.map (edgeOf ne)) ((j : ℝ) / n) (x ne ((j : ℝ) / n)) (y ne ((j : ℝ) / n))]
      · rfl
      · rw [List.forall₂_map_left_iff, List.forall₂_iff_get]
        refine ⟨h.length, fun k hk hk' => ?_⟩
        obtain ⟨z, e1, e2⟩ := h.edge k S[k] (List.getElem?_eq_getElem hk) ne hne _ b1 b2
        rw [List.getElem?_eq_getElem hk'] at e1
        cases e1
        exact e2
    · exact ⟨0, fun h => absurd h hi⟩
  choose z hz using hz
  exact ⟨z, fun ne hne i hi j hj => hz i hi ne hne j hj⟩

/-- The shoelace sum over the sampled edges of a section. -/
theorem Spec.Extrusion.loop (h : Extrusion S x y zs) (k : ℕ) (cs : List PathObj) (hk : S[k]? = some cs) (n : ℕ) (hn : 1 ≤ n) :
    edgeSum crossXY (loopEdges n 4 cs) = polygonArea2 x y n := by
  rw [edgeSum_loop]
  unfold polygonArea2 pathSum
  apply Finset.sum_congr rfl
  intro ne hne
  apply Finset.sum_congr rfl
  intro j hj
  have hj := Finset.mem_range.1 hj
  have hne := Finset.mem_range.1 hne
  obtain ⟨a1, a2⟩ := unit_div n j hn (by omega)
  obtain ⟨b1, b2⟩ := unit_div n (j + 1) hn (by omega)
  obtain ⟨z, -, e1⟩ := h.edge k cs hk ne hne _ a1 a2
  obtain ⟨z', -, e2⟩ := h.edge k cs hk ne hne _ b1 b2
  unfold edgePts crossXY
  rw [e1, e2]
  rfl

end

/-- A Coons patch of edges at height `z` is at height `z`. -/
theorem coons_flat (n e s w : PathObj) (F : Surf) (hF : CoonsPatch n e s w = .ok F) (z : ℝ)
    (hz : ∀ p ∈ [n, e, s, w], ∀ t : ℝ, 0 ≤ t → t ≤ 1 → ∀ q, p.call t = .ok q → q.z = z) :
    ∀ r t : ℝ, 0 ≤ r → r ≤ 1 → 0 ≤ t → t ≤ 1 → ∀ q, F r t = .ok q → q.z = z := by
  intro r t r0 r1 t0 t1 q hq
  unfold CoonsPatch at hF
  rw [bind_ok] at hF
  obtain ⟨c, hc, hF⟩ := hF
  cases hF
  obtain ⟨a1, a2, a3, a4, a5, a6, a7, a8, h1, h2, h3, h4, -, -, -, -, -, -, -, -, rfl⟩ := (Coons.ofEdges_ok_iff n e s w _ c).1 hc
  unfold Coons.call at hq
  simp only [bind_ok] at hq
  obtain ⟨q1, g1, q2, g2, q3, g3, q4, g4, g5⟩ := hq
  cases g5
  have e1 := hz s (by simp) r r0 r1 _ g1
  have e2 := hz n (by simp) r r0 r1 _ g2
  have e3 := hz w (by simp) t t0 t1 _ g3
  have e4 := hz e (by simp) t t0 t1 _ g4
  have c1 := hz s (by simp) 0 le_rfl zero_le_one _ h1
  have c2 := hz s (by simp) 1 zero_le_one le_rfl _ h2
  have c3 := hz n (by simp) 0 le_rfl zero_le_one _ h3
  have c4 := hz n (by simp) 1 zero_le_one le_rfl _ h4
  simp [Coons.blend, e1, e2, e3, e4, c1, c2, c3, c4]
  ring

/-- The end patches of a component whose first or last section is at height `z` are at height `z`. -/
theorem ends_flat (S : List (List PathObj)) (cs : List PathObj) (h4 : cs.length = 4) (z : ℝ)
    (hz : ∀ ne < 4, ∀ t : ℝ, 0 ≤ t → t ≤ 1 → ∃ q, (edgeOf ne cs).call t = .ok q ∧ q.z = z) :
    (S[0]? = some cs → ∀ F, Swept.frontPatch S = .ok F →
      ∀ r t : ℝ, 0 ≤ r → r ≤ 1 → 0 ≤ t → t ≤ 1 → ∀ q, F r t = .ok q → q.z = z) ∧
    (S[S.length - 1]? = some cs → ∀ F, Swept.rearPatch S = .ok F →
      ∀ r t : ℝ, 0 ≤ r → r ≤ 1 → 0 ≤ t → t ≤ 1 → ∀ q, F r t = .ok q → q.z = z) := by
  have hg : ∀ ne < 4, SweptPatch.getIdx cs ne = .ok (edgeOf ne cs) := fun ne hne => by
    rw [getIdx_ok]; exact getElem?_edgeOf (by omega)
  have hd : ∀ ne < 4, ∀ t : ℝ, 0 ≤ t → t ≤ 1 → ∀ q, (edgeOf ne cs).call t = .ok q → q.z = z := by
    intro ne hne t t0 t1 q hq
    obtain ⟨q', h1, h2⟩ := hz ne hne t t0 t1
    rw [hq] at h1
    cases h1
    exact h2
  have hr : ∀ ne < 4, ∀ t : ℝ, 0 ≤ t → t ≤ 1 → ∀ q, (ReversedPath (edgeOf ne cs)).call t = .ok q → q.z = z := by
    intro ne hne t t0 t1 q hq
    rw [reversed_call] at hq
    exact hd ne hne _ (by linarith) (by linarith) q hq
  constructor
  · intro hf F hF
    unfold Swept.frontPatch at hF
    rw [getIdx_ok.2 hf] at hF
    simp only [ok_bind, hg 0 (by omega), hg 1 (by omega), hg 2 (by omega), hg 3 (by omega)] at hF
    refine coons_flat _ _ _ _ F hF z ?_
    intro p hp
    simp only [List.mem_cons, List.not_mem_nil, or_false] at hp
    rcases hp with rfl | rfl | rfl | rfl
    · exact hr 2 (by omega)
    · exact hd 1 (by omega)
    · exact hd 0 (by omega)
    · exact hr 3 (by omega)
  · intro hf F hF
    unfold Swept.rearPatch at hF
    rw [getIdx_ok.2 hf] at hF
    simp only [ok_bind, hg 0 (by omega), hg 1 (by omega), hg 2 (by omega), hg 3 (by omega)] at hF
    refine coons_flat _ _ _ _ F hF z ?_
    intro p hp
    simp only [List.mem_cons, List.not_mem_nil, or_false] at hp
    rcases hp with rfl | rfl | rfl | rfl
    · exact hd 2 (by omega)
    · exact hr 3 (by omega)
    · exact hr 0 (by omega)
    · exact hd 1 (by omega)

/-- The generated mesh of an extruded section: closed, and its volume. -/
theorem extrusion_mesh {S : List (List PathObj)} {x y : ℕ → ℝ → ℝ} {zs : List ℝ} (h : Extrusion S x y zs) (h2 : 2 ≤ S.length)
    (hc : ∀ ne < 4, x ne 1 = x ((ne + 1) % 4) 0 ∧ y ne 1 = y ((ne + 1) % 4) 0) (z0 z1 : ℝ) (hz0 : zs.head? = some z0)
    (hz1 : zs.getLast? = some z1) (n : ℕ) (hn : 1 ≤ n) (name : Option String) :
    ∃ c, Swept.init S true (.int n) name = .ok c ∧ ∀ (hp : Heap) (id : ℕ), hp id = c →
    ∃ h' M c', generatePatches hp id = (.ok (), h') ∧ (h' id).mesh = (.ok M, c') ∧ Closed M.tris ∧
      signedVolume M.tris = -(z1 - z0) * (polygonArea2 x y n / 2) := by
  have hcl := h.closed hc
  have hf0 : S[0]? = some S[0] := List.getElem?_eq_getElem (by omega)
  have hl0 : S[S.length - 1]? = some S[S.length - 1] := List.getElem?_eq_getElem (by omega)
  obtain ⟨c, hinit, hh⟩ := closed_swept_mesh S S[0] S[S.length - 1] hf0 hl0 h2 h.len h.total hcl (.int n) n n
    (Or.inl ⟨rfl, rfl⟩) hn hn name
  refine ⟨c, hinit, fun hp id hid => ?_⟩
  obtain ⟨h', M, c', g1, g2, g3, F0, F1, hF0, hF1, t0, t1, hb, -, ht⟩ := hh hp id hid
  refine ⟨h', M, c', g1, g2, ?_, ?_⟩
  · rw [closed_iff_edgeSum]
    intro φ hφ
    rw [g3 _ φ hφ]
    ring
  obtain ⟨z, hgrid⟩ := h.grid h2 n hn
  have hzs : zs.length = S.length := h.length.symm
  have hz0' : zs[0]? = some z0 := by rw [← List.head?_eq_getElem?]; exact hz0
  have hz1' : zs[S.length - 1]? = some z1 := by rw [← hzs, ← List.getLast?_eq_getElem?]; exact hz1
  have hzf : ∀ ne < 4, ∀ t : ℝ, 0 ≤ t → t ≤ 1 → ∃ q, (edgeOf ne S[0]).call t = .ok q ∧ q.z = z0 := by
    intro ne hne t a b
    obtain ⟨z, e1, e2⟩ := h.edge 0 _ hf0 ne hne t a b
    rw [hz0'] at e1
    cases e1
    exact ⟨_, e2, rfl⟩
  have hzl : ∀ ne < 4, ∀ t : ℝ, 0 ≤ t → t ≤ 1 → ∃ q, (edgeOf ne S[S.length - 1]).call t = .ok q ∧ q.z = z1 := by
    intro ne hne t a b
    obtain ⟨z, e1, e2⟩ := h.edge _ _ hl0 ne hne t a b
    rw [hz1'] at e1
    cases e1
    exact ⟨_, e2, rfl⟩
  have f0 := (ends_flat S _ (h.len _ (List.getElem_mem _)) z0 hzf).1 hf0 F0 hF0
  have f1 := (ends_flat S _ (h.len _ (List.getElem_mem _)) z1 hzl).2 hl0 F1 hF1
  have v0 := signedVolume_flat_grid n (fun (i j : ℕ) => okv (F0 ((i : ℝ) / n) ((j : ℝ) / n))) z0 (by
    intro i hi j hj
    obtain ⟨a1, a2⟩ := unit_div n i hn hi
    obtain ⟨b1, b2⟩ := unit_div n j hn hj
    exact f0 _ _ a1 a2 b1 b2 _ (okv_eq (t0 i hi j hj)))
  have v1 := signedVolume_flat_grid n (fun (i j : ℕ) => okv (F1 ((i : ℝ) / n) ((j : ℝ) / n))) z1 (by
    intro i hi j hj
    obtain ⟨a1, a2⟩ := unit_div n i hn hi
    obtain ⟨b1, b2⟩ := unit_div n j hn hj
    exact f1 _ _ a1 a2 b1 b2 _ (okv_eq (t1 i hi j hj)))
  rw [(hb _ crossXY_anti).1, h.loop 0 _ hf0 n hn] at v0
  rw [(hb _ crossXY_anti).2, h.loop _ _ hl0 n hn] at v1
  have hzn : z n = z1 ∧ z 0 = z0 := by
    constructor
    · have e := hgrid 0 (by omega) n le_rfl 0 (by omega)
      rw [sweptGrid_last S _ h2 hl0 n hn] at e
      obtain ⟨a1, a2⟩ := unit_div n 0 hn (by omega)
      obtain ⟨q, hq, hqz⟩ := hzl 0 (by omega) _ a1 a2
      unfold edgePts at e
      rw [hq] at e
      have : q.z = z n := by
        have e' : q = _ := e
        rw [e']
      rw [← this, hqz]
    · have e := hgrid 0 (by omega) 0 (by omega) 0 (by omega)
      rw [sweptGrid_first S _ h2 hf0 n] at e
      obtain ⟨a1, a2⟩ := unit_div n 0 hn (by omega)
      obtain ⟨q, hq, hqz⟩ := hzf 0 (by omega) _ a1 a2
      unfold edgePts at e
      rw [hq] at e
      have : q.z = z 0 := by
        have e' : q = _ := e
        rw [e']
      rw [← this, hqz]
  have hw : ∀ ne < 4, signedVolume (gridMesh MeshArith.real false n n (sweptGrid S n ne)) =
      -(z1 - z0) / 3 * pathSum crossXY (edgePts n S[0] ne) n := by
    intro ne hne
    rw [signedVolume_wall n n _ (fun j => x ne ((j : ℝ) / n)) (fun j => y ne ((j : ℝ) / n)) z
      (fun i hi j hj => hgrid ne hne i hi j hj), hzn.1, hzn.2]
    congr 1
    exact pathSum_congr _ fun j _ => sweptGrid_first S _ h2 hf0 n ne j
  have hwalls : ((List.range 4).map fun ne => signedVolume (gridMesh MeshArith.real false n n (sweptGrid S n ne))).sum =
      -(z1 - z0) / 3 * polygonArea2 x y n := by
    rw [sum_map_range, ← h.loop 0 _ hf0 n hn, edgeSum_loop, Finset.mul_sum]
    exact Finset.sum_congr rfl fun ne hne => hw ne (Finset.mem_range.1 hne)
  rw [ht, signedVolume_flatten, List.map_append, List.map_append, List.sum_append, List.map_map, List.map_map]
  simp only [Function.comp_def, List.map_cons, List.map_nil, List.sum_cons, List.sum_nil]
  rw [hwalls, v0, v1]
  ring

/-- C96: an extruded section gives a closed mesh; the volume it encloses is the height of the extrusion times the area of
the polygon of the section, counted negative when the section runs counterclockwise seen from positive `z` and the
extrusion goes up. -/
theorem C96_extrusion {S : List (List PathObj)} {x y : ℕ → ℝ → ℝ} {zs : List ℝ} (h : Extrusion S x y zs) (h2 : 2 ≤ S.length)
    (hc : ∀ ne < 4, x ne 1 = x ((ne + 1) % 4) 0 ∧ y ne 1 = y ((ne + 1) % 4) 0) (z0 z1 : ℝ) (hz0 : zs.head? = some z0)
    (hz1 : zs.getLast? = some z1) (n : ℕ) (hn : 1 ≤ n) (name : Option String) :
    ∃ c, Swept.init S true (.int n) name = .ok c ∧ ∀ (hp : Heap) (id : ℕ), hp id = c →
    ∃ h' M c', generatePatches hp id = (.ok (), h') ∧ (h' id).mesh = (.ok M, c') ∧ Closed M.tris ∧
      signedVolume M.tris = -(z1 - z0) * (polygonArea2 x y n / 2) :=
  extrusion_mesh h h2 hc z0 z1 hz0 hz1 n hn name

/-! ## Straight edges -/

/-- The coordinate at `t` on the straight line from corner `ne` to the next. -/
noncomputable def Spec.side (c : ℕ → ℝ) (ne : ℕ) (t : ℝ) : ℝ := c ne * (1 - t) + c ((ne + 1) % 4) * t

/-- For a quadrilateral with straight edges the area is that of the quadrilateral, at every resolution. -/
theorem C96_quadrilateral (cx cy : ℕ → ℝ) (n : ℕ) (hn : 1 ≤ n) : polygonArea2 (side cx) (side cy) n =
    (cx 0 * cy 1 - cy 0 * cx 1) + (cx 1 * cy 2 - cy 1 * cx 2) + (cx 2 * cy 3 - cy 2 * cx 3) + (cx 3 * cy 0 - cy 3 * cx 0) := by
  have hn0 : (n : ℝ) ≠ 0 := by positivity
  have key : ∀ ne, ∑ j ∈ Finset.range n, (side cx ne ((j : ℝ) / n) * side cy ne (((j + 1 : ℕ) : ℝ) / n) -
      side cy ne ((j : ℝ) / n) * side cx ne (((j + 1 : ℕ) : ℝ) / n)) =
      cx ne * cy ((ne + 1) % 4) - cy ne * cx ((ne + 1) % 4) := by
    intro ne
    have : ∀ j ∈ Finset.range n, (side cx ne ((j : ℝ) / n) * side cy ne (((j + 1 : ℕ) : ℝ) / n) -
      side cy ne ((j : ℝ) / n) * side cx ne (((j + 1 : ℕ) : ℝ) / n)) =
      (cx ne * cy ((ne + 1) % 4) - cy ne * cx ((ne + 1) % 4)) / n := by
      intro j _
      unfold side
      push_cast
      field_simp
      ring
    rw [Finset.sum_congr rfl this, Finset.sum_const, Finset.card_range, nsmul_eq_mul]
    field_simp
  unfold polygonArea2
  simp only [key, Finset.sum_range_succ, Finset.sum_range_zero]
  norm_num

/-- The cross section with four straight edges at height `z`. -/
noncomputable def quadSection (cx cy : ℕ → ℝ) (z : ℝ) : List PathObj :=
  [Line ⟨cx 0, cy 0, z⟩ ⟨cx 1, cy 1, z⟩, Line ⟨cx 1, cy 1, z⟩ ⟨cx 2, cy 2, z⟩, Line ⟨cx 2, cy 2, z⟩ ⟨cx 3, cy 3, z⟩,
   Line ⟨cx 3, cy 3, z⟩ ⟨cx 0, cy 0, z⟩]

theorem quad_extrusion (cx cy : ℕ → ℝ) (zs : List ℝ) : Extrusion (zs.map (quadSection cx cy)) (side cx) (side cy) zs := by
  unfold Extrusion
  rw [List.forall₂_map_left_iff, List.forall₂_same]
  intro z _
  refine ⟨rfl, ?_⟩
  intro ne e he t _ _
  have hi : ne < 4 := (List.getElem?_eq_some_iff.1 he).1
  interval_cases ne <;> simp [quadSection] at he <;> subst he <;>
    simp only [Line, lineAt, Except.ok.injEq, side] <;> ext <;> simp <;> ring

theorem quad_closes (c : ℕ → ℝ) : ∀ ne < 4, side c ne 1 = side c ((ne + 1) % 4) 0 := by
  intro ne hne
  simp [side]

/-- The hypotheses of `C96_extrusion` hold for three copies of a square with corners `(0,0), (1,0), (1,1), (0,1)`: the volume
of the box up to height 3 is `-3`. -/
example : ∃ c, Swept.init ([0, 1, 3].map (quadSection (fun i => [0, 1, 1, 0].getD i 0) (fun i => [0, 0, 1, 1].getD i 0))) true (.int 5)
    none = .ok c ∧ ∀ (hp : Heap) (id : ℕ), hp id = c →
    ∃ h' M c', generatePatches hp id = (.ok (), h') ∧ (h' id).mesh = (.ok M, c') ∧ Closed M.tris ∧ signedVolume M.tris = -3 := by
  obtain ⟨c, hc, hh⟩ := C96_extrusion (quad_extrusion (fun i => [0, 1, 1, 0].getD i 0) (fun i => [0, 0, 1, 1].getD i 0) [0, 1, 3]) (by simp)
    (fun ne hne => ⟨quad_closes _ ne hne, quad_closes _ ne hne⟩) 0 3 rfl rfl 5 (by norm_num) none
  refine ⟨c, hc, fun hp id hid => ?_⟩
  obtain ⟨h', M, c', h1, h2, h3, h4⟩ := hh hp id hid
  refine ⟨h', M, c', h1, h2, h3, ?_⟩
  rw [h4, C96_quadrilateral _ _ 5 (by norm_num)]
  norm_num

end HV
