import Verif.Model.Wing
import Verif.Props.Swept
import Verif.Lemmas.Ellipse

/-!
# C62, C63: wings
-/

namespace HV
open Spec

/-- `runStages` succeeds exactly when every stage does; the patches are those of all stages in order. -/
theorem runStages_ok (L : List (Res (List (String × Surf)))) :
    (runStages L).err = none ↔ ∃ ls, List.Forall₂ (fun r l => r = .ok l) L ls ∧ runStages L = ⟨ls.flatten, [], [], none⟩ := by
  induction L with
  | nil => exact ⟨fun _ => ⟨[], .nil, rfl⟩, fun _ => rfl⟩
  | cons r L ih =>
    cases r with
    | error e =>
      constructor
      · intro h; simp [runStages] at h
      · rintro ⟨ls, h, -⟩
        cases h with
        | cons h _ => cases h
    | ok l =>
      constructor
      · intro h
        obtain ⟨ls, h1, h2⟩ := ih.1 (by simpa [runStages] using h)
        exact ⟨l :: ls, .cons rfl h1, by simp [runStages, h2]⟩
      · rintro ⟨ls, h, h2⟩
        rw [h2]

namespace Wing

/-- The patch names of the skins. -/
theorem skins_ok {w : State} {l : List (String × Surf)} (h : skins w = .ok l) :
    ∃ p0 p1 f0 f1, planform w = .ok (p0, p1, f0, f1) ∧
      l = [("top_patch_0", OffsetPatchFunction f0 w.args.top_tf), ("top_patch_1", OffsetPatchFunction f1 w.args.top_tf),
        ("bot_patch_0", OffsetPatchFunction p0 w.args.bot_tf), ("bot_patch_1", OffsetPatchFunction p1 w.args.bot_tf)] := by
  obtain ⟨⟨p0, p1, f0, f1⟩, h1, h2⟩ := bind_ok.1 h
  exact ⟨p0, p1, f0, f1, h1, (pure_ok.1 h2).symm⟩

theorem planform_ok {w : State} {p0 p1 f0 f1 : Surf} (h : planform w = .ok (p0, p1, f0, f1)) :
    ∃ B1 tB2, w.args.line.call w.t_B1 = .ok B1 ∧ w.t_B2 = some tB2 ∧
      CoonsPatch (SubRangedPath w.args.line 0 w.t_B1) (Line w.args.A1 B1) (Line w.args.A0 w.args.A1)
        (Line w.args.A0 w.args.B0) = .ok p0 ∧
      CoonsPatch (SubRangedPath w.args.line w.t_B1 tB2) (SubRangedPath w.args.line 1 tB2) (Line w.args.A1 w.args.TT)
        (Line w.args.A1 B1) = .ok p1 ∧
      CoonsPatch (SubRangedPath (SubRangedPath w.args.line 0 w.t_B1) 1 0) (Line w.args.A0 w.args.B0)
        (Line w.args.A1 w.args.A0) (Line w.args.A1 B1) = .ok f0 ∧
      CoonsPatch (SubRangedPath (SubRangedPath w.args.line w.t_B1 tB2) 1 0) (Line w.args.A1 B1) (Line w.args.TT w.args.A1)
        (SubRangedPath w.args.line 1 tB2) = .ok f1 := by
  unfold planform at h
  by_cases hb : w.args.lineType.toLower = "bezier"
  · simp only [hb, ne_eq, not_true_eq_false, if_false] at h
    obtain ⟨-, -, h⟩ := bind_ok.1 h
    obtain ⟨B1, h1, h⟩ := bind_ok.1 h
    obtain ⟨q0, h2, h⟩ := bind_ok.1 h
    obtain ⟨t2, h3, h⟩ := bind_ok.1 h
    obtain ⟨q1, h4, h⟩ := bind_ok.1 h
    obtain ⟨g0, h5, h⟩ := bind_ok.1 h
    obtain ⟨g1, h6, h⟩ := bind_ok.1 h
    have := pure_ok.1 h
    simp only [Prod.mk.injEq] at this
    obtain ⟨rfl, rfl, rfl, rfl⟩ := this
    refine ⟨B1, t2, h1, ?_, h2, h4, h5, h6⟩
    unfold num at h3
    split at h3
    · cases h3; assumption
    · cases h3
  · simp only [hb, ne_eq, not_false_eq_true, if_true] at h
    cases h

/-- The names of the patches of a wing. -/
def stageNames (w : State) : List (List String) :=
  [["top_patch_0", "top_patch_1", "bot_patch_0", "bot_patch_1"],
   if w.LE_TYPE = "FLAT" then ["LE_patch0", "LE_patch1", "LE_patch2"]
   else ["LE_top_patch_0", "LE_top_patch_1", "LE_top_patch_2", "LE_bot_patch_0", "LE_bot_patch_1", "LE_bot_patch_2"],
   ["TE_top_patch", "TE_bot_patch"], ["TELE_patch"]] ++
   if w.args.close_wing then [["wing_close_top_patch0", "wing_close_top_patch1", "wing_close_bot_patch0",
    "wing_close_bot_patch1", "interior_ellip"], ["interior_flap_patch"]] else []

theorem le_ok {ptan : ℝ → ℝ} {w : State} {l : List (String × Surf)} (h : leadingEdge ptan w = .ok l) :
    ∃ tB2, w.t_B2 = some tB2 ∧ l = if w.LE_TYPE = "FLAT" then flatLE w tB2 else ellipticLE ptan w tB2 := by
  obtain ⟨t, h1, h2⟩ := bind_ok.1 h
  refine ⟨t, ?_, (pure_ok.1 h2).symm⟩
  unfold num at h1
  split at h1
  · cases h1; assumption
  · cases h1

theorem flap_ok {w : State} {l : List (String × Surf)} (h : flap w = .ok l) :
    ∃ a b, l = [("TE_top_patch", a), ("TE_bot_patch", b)] := by
  unfold flap at h
  by_cases hb : w.args.tail_option = "FLAP"
  · simp only [hb, ne_eq, not_true_eq_false, if_false] at h
    obtain ⟨-, -, h⟩ := bind_ok.1 h
    obtain ⟨a, -, h⟩ := bind_ok.1 h
    obtain ⟨b, -, h⟩ := bind_ok.1 h
    exact ⟨a, b, (pure_ok.1 h).symm⟩
  · simp only [hb, ne_eq, not_false_eq_true, if_true] at h
    cases h

theorem tele_ok {ptan : ℝ → ℝ} {w : State} {l : List (String × Surf)} (h : tele ptan w = .ok l) :
    ∃ a, l = [("TELE_patch", a)] := by
  obtain ⟨m, -, h⟩ := bind_ok.1 h
  obtain ⟨t, -, h⟩ := bind_ok.1 h
  obtain ⟨b, -, h⟩ := bind_ok.1 h
  obtain ⟨⟨n, w⟩, -, h⟩ := bind_ok.1 h
  obtain ⟨a, -, h⟩ := bind_ok.1 h
  exact ⟨a, (pure_ok.1 h).symm⟩

theorem close_names {ptan : ℝ → ℝ} {w : State} {l : List (String × Surf)} (h : closeFrom ptan w = .ok l) :
    l.map Prod.fst = ["wing_close_top_patch0", "wing_close_top_patch1", "wing_close_bot_patch0",
    "wing_close_bot_patch1", "interior_ellip"] := by
  obtain ⟨l', -, h⟩ := bind_ok.1 h
  obtain ⟨a, -, h⟩ := bind_ok.1 h
  obtain ⟨b, -, h⟩ := bind_ok.1 h
  unfold closeWing at h
  repeat (obtain ⟨_, -, h⟩ := bind_ok.1 h)
  rw [← pure_ok.1 h]
  rfl

theorem closeFlap_names {w : State} {l : List (String × Surf)} (h : closeFlap w = .ok l) :
    l.map Prod.fst = ["interior_flap_patch"] := by
  unfold closeFlap at h
  repeat (obtain ⟨_, -, h⟩ := bind_ok.1 h)
  rw [← pure_ok.1 h]
  rfl

theorem leNames {ptan : ℝ → ℝ} {w : State} {l : List (String × Surf)} (h : leadingEdge ptan w = .ok l) :
    l.map Prod.fst = if w.LE_TYPE = "FLAT" then ["LE_patch0", "LE_patch1", "LE_patch2"]
      else ["LE_top_patch_0", "LE_top_patch_1", "LE_top_patch_2", "LE_bot_patch_0", "LE_bot_patch_1", "LE_bot_patch_2"] := by
  obtain ⟨t, -, rfl⟩ := le_ok h
  split <;> rfl

theorem names_of_stages {ptan : ℝ → ℝ} {w : State} {ls : List (List (String × Surf))}
    (h : List.Forall₂ (fun r l => r = .ok l) (stages ptan w) ls) : ls.map (List.map Prod.fst) = stageNames w := by
  unfold stages at h
  simp only [List.cons_append, List.nil_append] at h
  obtain ⟨l1, u1, h1, g1, rfl⟩ := List.forall₂_cons_left_iff.1 h
  obtain ⟨l2, u2, h2, g2, rfl⟩ := List.forall₂_cons_left_iff.1 g1
  obtain ⟨l3, u3, h3, g3, rfl⟩ := List.forall₂_cons_left_iff.1 g2
  obtain ⟨l4, u4, h4, g4, rfl⟩ := List.forall₂_cons_left_iff.1 g3
  obtain ⟨p0, p1, f0, f1, -, rfl⟩ := skins_ok h1
  obtain ⟨a, b, rfl⟩ := flap_ok h3
  obtain ⟨c, rfl⟩ := tele_ok h4
  have e : u4.map (List.map Prod.fst) = if w.args.close_wing then [["wing_close_top_patch0", "wing_close_top_patch1",
      "wing_close_bot_patch0", "wing_close_bot_patch1", "interior_ellip"], ["interior_flap_patch"]] else [] := by
    by_cases hc : w.args.close_wing
    · rw [if_pos hc] at g4 ⊢
      obtain ⟨l5, u5, h5, g5, rfl⟩ := List.forall₂_cons_left_iff.1 g4
      obtain ⟨l6, u6, h6, g6, rfl⟩ := List.forall₂_cons_left_iff.1 g5
      cases g6
      rw [List.map_cons, List.map_cons, close_names h5, closeFlap_names h6]
      rfl
    · rw [if_neg hc] at g4 ⊢
      cases g4
      rfl
  unfold stageNames
  simp only [List.map_cons, List.map_nil, leNames h2, e]
  rfl

theorem stageNames_nodup (w : State) : (stageNames w).flatten.Nodup := by
  unfold stageNames
  split <;> split <;> decide

/-- Generating a new wing: the outcome is success exactly when all stages succeed, and then the patches of the component are
those of the stages. -/
theorem generated {ptan : ℝ → ℝ} {w : State} {res : ℕ} {name : Option String} {h : Heap} {id : ℕ}
    (hid : h id = comp ptan w res name) :
    (generatePatches h id).1 = .ok () ↔ ∃ ls, List.Forall₂ (fun r l => r = .ok l) (stages ptan w) ls ∧
      ((generatePatches h id).2 id).patches = ls.flatten := by
  have hg : generatePatches h id = (((h id).genInto (runStages (stages ptan w))).1,
      h.upd id ((h id).genInto (runStages (stages ptan w))).2) := by
    unfold generatePatches Composite.genLeaf
    have : (h id).gen = .into fun _ => runStages (stages ptan w) := by rw [hid]; rfl
    simp only [this]
  rw [hg]
  simp only [upd_self, Comp.genInto]
  constructor
  · intro hok
    have : (runStages (stages ptan w)).err = none := by
      cases hE : (runStages (stages ptan w)).err with
      | none => rfl
      | some e => simp [hE] at hok
    obtain ⟨ls, h1, h2⟩ := (runStages_ok _).1 this
    refine ⟨ls, h1, ?_⟩
    rw [h2, hid]
    apply Dict.setAll_nil_nodup
    rw [List.map_flatten, names_of_stages h1]
    exact stageNames_nodup w
  · rintro ⟨ls, h1, -⟩
    have : (runStages (stages ptan w)).err = none := by
      have : ∀ L (ls : List (List (String × Surf))), List.Forall₂ (fun (r : Res (List (String × Surf))) l => r = .ok l) L ls →
          (runStages L).err = none := by
        intro L ls h
        induction h with
        | nil => rfl
        | @cons r l L ls hd _ ih => subst hd; simpa [runStages] using ih
      exact this _ _ h1
    rw [this]

/-- The patches of a generated wing. -/
theorem generated_patches {ptan : ℝ → ℝ} {w : State} {res : ℕ} {name : Option String} {h : Heap} {id : ℕ}
    (hid : h id = comp ptan w res name) (hok : (generatePatches h id).1 = .ok ()) :
    ∃ l1 l2 rest, skins w = .ok l1 ∧ leadingEdge ptan w = .ok l2 ∧
      ((generatePatches h id).2 id).patches = l1 ++ (l2 ++ rest) ∧
      ((generatePatches h id).2 id).patches.keys = (stageNames w).flatten := by
  obtain ⟨ls, h1, h2⟩ := (generated hid).1 hok
  have hn := names_of_stages h1
  have hk : ((generatePatches h id).2 id).patches.keys = (stageNames w).flatten := by
    rw [h2, ← hn, ← List.map_flatten]; rfl
  unfold stages at h1
  simp only [List.cons_append, List.nil_append] at h1
  obtain ⟨l1, u1, e1, g1, rfl⟩ := List.forall₂_cons_left_iff.1 h1
  obtain ⟨l2, u2, e2, g2, rfl⟩ := List.forall₂_cons_left_iff.1 g1
  exact ⟨l1, l2, u2.flatten, e1, e2, by rw [h2]; rfl, hk⟩

end Wing

/-! ## C63 -/

/-- Reversing the first parameter of a Coons patch: reverse north and south, exchange east and west. -/
theorem coons_flip (n e s w n' s' : PathObj) (hn : ∀ r, n'.call r = n.call (1 - r)) (hs : ∀ r, s'.call r = s.call (1 - r))
    (P F : Surf) (hP : CoonsPatch n e s w = .ok P) (hF : CoonsPatch n' w s' e = .ok F) (r t : ℝ) (p : V)
    (hp : F r t = .ok p) : P (1 - r) t = .ok p := by
  obtain ⟨c, hc, hP⟩ := bind_ok.1 hP
  obtain ⟨c', hc', hF⟩ := bind_ok.1 hF
  rw [← pure_ok.1 hP]
  rw [← pure_ok.1 hF] at hp
  obtain ⟨a1, a2, a3, a4, a5, a6, a7, a8, b1, b2, b3, b4, b5, b6, b7, b8, -, -, -, -, rfl⟩ :=
    (Coons.ofEdges_ok_iff n e s w _ c).1 hc
  obtain ⟨d1, d2, d3, d4, d5, d6, d7, d8, f1, f2, f3, f4, f5, f6, f7, f8, -, -, -, -, rfl⟩ :=
    (Coons.ofEdges_ok_iff n' w s' e _ c').1 hc'
  rw [hs] at f1 f2
  rw [hn] at f3 f4
  rw [sub_zero] at f1 f3
  rw [sub_self] at f2 f4
  obtain rfl : a2 = d1 := by rw [b2] at f1; exact Except.ok.inj f1
  obtain rfl : a1 = d2 := by rw [b1] at f2; exact Except.ok.inj f2
  obtain rfl : a4 = d3 := by rw [b4] at f3; exact Except.ok.inj f3
  obtain rfl : a3 = d4 := by rw [b3] at f4; exact Except.ok.inj f4
  unfold Coons.call at hp ⊢
  obtain ⟨sr, g1, hp⟩ := bind_ok.1 hp
  obtain ⟨nr, g2, hp⟩ := bind_ok.1 hp
  obtain ⟨wr, g3, hp⟩ := bind_ok.1 hp
  obtain ⟨er, g4, hp⟩ := bind_ok.1 hp
  simp only at g1 g2 g3 g4
  rw [hs] at g1
  rw [hn] at g2
  rw [← pure_ok.1 hp]
  simp only [g1, g2, g3, g4, bind, Except.bind, pure, Except.pure, Except.ok.injEq, Coons.blend]
  ext <;> simp <;> ring

theorem line_flip (a b : V) (r : ℝ) : (Line b a).call r = (Line a b).call (1 - r) := by
  simp only [Line, lineAt, Except.ok.injEq]
  ext <;> simp <;> ring

/-- An offset patch evaluates to the sum of the surface point and the offset there. -/
theorem offsetPatch_ok {F : Surf} {f : OffFn} {r s : ℝ} {p : V} :
    OffsetPatchFunction F f r s = .ok p ↔ ∃ q o, F r s = .ok q ∧ f q.x q.y q.z = .ok o ∧ p = q + o := by
  constructor
  · intro h
    obtain ⟨q, h1, h⟩ := bind_ok.1 h
    obtain ⟨o, h2, h⟩ := bind_ok.1 h
    obtain ⟨q', h3, h⟩ := bind_ok.1 h
    rw [h1] at h3
    cases h3
    exact ⟨q, o, h1, h2, (pure_ok.1 h).symm⟩
  · rintro ⟨q, o, h1, h2, rfl⟩
    simp only [OffsetPatchFunction, h1, h2, bind, Except.bind, pure, Except.pure]

/-- C63: in every wing that generates, the upper skin at `(r,s)` and the lower skin at `(1-r,s)` are the same planform point
moved by the upper and by the lower thickness function. -/
theorem C63_wing (ptan : ℝ → ℝ) (w : Wing.State) (res : ℕ) (name : Option String) (h : Heap) (id : ℕ)
    (hid : h id = Wing.comp ptan w res name) (hok : (generatePatches h id).1 = .ok ()) (i : ℕ) (hi : i < 2) :
    ∃ top bot, ((generatePatches h id).2 id).patches.get? ("top_patch_" ++ toString i) = some top ∧
      ((generatePatches h id).2 id).patches.get? ("bot_patch_" ++ toString i) = some bot ∧
      ∀ r s p q, top r s = .ok p → bot (1 - r) s = .ok q →
        ∃ P a b, w.args.top_tf P.x P.y P.z = .ok a ∧ w.args.bot_tf P.x P.y P.z = .ok b ∧ p = P + a ∧ q = P + b := by
  obtain ⟨l1, l2, rest, h1, h2, hp, -⟩ := Wing.generated_patches hid hok
  obtain ⟨p0, p1, f0, f1, hpl, rfl⟩ := Wing.skins_ok h1
  obtain ⟨B1, t2, hB1, ht2, hp0, hp1, hf0, hf1⟩ := Wing.planform_ok hpl
  have key : ∀ P F : Surf, (∀ r t p, F r t = .ok p → P (1 - r) t = .ok p) → ∀ r s p q,
      OffsetPatchFunction F w.args.top_tf r s = .ok p → OffsetPatchFunction P w.args.bot_tf (1 - r) s = .ok q →
        ∃ P a b, w.args.top_tf P.x P.y P.z = .ok a ∧ w.args.bot_tf P.x P.y P.z = .ok b ∧ p = P + a ∧ q = P + b := by
    intro P F hPF r s p q h1 h2
    obtain ⟨v, a, g1, g2, rfl⟩ := offsetPatch_ok.1 h1
    obtain ⟨v', b, g3, g4, rfl⟩ := offsetPatch_ok.1 h2
    rw [hPF r s v g1] at g3
    cases g3
    exact ⟨v, a, b, g2, g4, rfl, rfl⟩
  have hsub : ∀ (p : PathObj) r, (SubRangedPath p 1 0).call r = p.call (1 - r) := fun p r => reversed_call p r
  rw [hp]
  rcases (by omega : i = 0 ∨ i = 1) with rfl | rfl
  · refine ⟨OffsetPatchFunction f0 w.args.top_tf, OffsetPatchFunction p0 w.args.bot_tf, rfl, rfl, ?_⟩
    exact key p0 f0 (coons_flip _ _ _ _ _ _ (hsub _) (line_flip _ _) p0 f0 hp0 hf0)
  · refine ⟨OffsetPatchFunction f1 w.args.top_tf, OffsetPatchFunction p1 w.args.bot_tf, rfl, rfl, ?_⟩
    exact key p1 f1 (coons_flip _ _ _ _ _ _ (hsub _) (line_flip _ _) p1 f1 hp1 hf1)


/-! ## Flat wings generate -/

/-- A thickness function that is defined everywhere and offsets vertically. -/
def Spec.Vertical (f : OffFn) : Prop := ∀ x y z, ∃ h, f x y z = .ok ⟨0, 0, h⟩

theorem line_zero (a b : V) : (Line a b).call 0 = .ok a := by
  simp only [Line, lineAt, Except.ok.injEq]; ext <;> simp

theorem line_one (a b : V) : (Line a b).call 1 = .ok b := by
  simp only [Line, lineAt, Except.ok.injEq]; ext <;> simp

theorem exists_map_ok {α β : Type} {x : Res α} {f : α → β} (h : ∃ a, x = .ok a) :
    ∃ l, (do let p ← x; return f p) = (.ok l : Res β) := by
  obtain ⟨a, rfl⟩ := h
  exact ⟨_, rfl⟩

theorem coons_lines (n0 n1 e0 e1 s0 s1 w0 w1 : V) (h00 : s0 = w0) (h10 : s1 = e0) (h01 : n0 = w1) (h11 : n1 = e1) :
    ∃ F, CoonsPatch (Line n0 n1) (Line e0 e1) (Line s0 s1) (Line w0 w1) = .ok F := by
  have lt : ∀ a b : V, ∀ t : ℝ, 0 ≤ t → t ≤ 1 → ∃ p, (Line a b).call t = .ok p := fun a b t _ _ => ⟨_, rfl⟩
  subst h00 h10 h01 h11
  obtain ⟨F, hF, -⟩ := coons_sides _ _ _ _ (lt n0 n1) (lt s1 n1) (lt s0 s1) (lt s0 n0) (by rw [line_zero, line_zero])
    (by rw [line_zero, line_one]) (by rw [line_zero, line_one]) (by rw [line_one, line_one])
  exact ⟨F, hF⟩

/-- The trailing edge paths with vertical thickness functions. -/
theorem Wing.te_points (w : Wing.State) (htop : Vertical w.args.top_tf) (hbot : Vertical w.args.bot_tf) (t : ℝ) :
    ∃ zt zb zo zu, w.args.top_tf (lineAt w.args.A0 w.args.B0 t).x (lineAt w.args.A0 w.args.B0 t).y 0 = .ok ⟨0, 0, zo⟩ ∧
      w.args.bot_tf (lineAt w.args.A0 w.args.B0 t).x (lineAt w.args.A0 w.args.B0 t).y 0 = .ok ⟨0, 0, zu⟩ ∧
      zt = (lineAt w.args.A0 w.args.B0 t).z + zo ∧ zb = (lineAt w.args.A0 w.args.B0 t).z + zu ∧
      (Wing.teTop w).call t = .ok ⟨(lineAt w.args.A0 w.args.B0 t).x, (lineAt w.args.A0 w.args.B0 t).y, zt⟩ ∧
      (Wing.teBot w).call t = .ok ⟨(lineAt w.args.A0 w.args.B0 t).x, (lineAt w.args.A0 w.args.B0 t).y, zb⟩ ∧
      (Wing.teMean w).call t = .ok ⟨(lineAt w.args.A0 w.args.B0 t).x, (lineAt w.args.A0 w.args.B0 t).y, (zt + zb) / 2⟩ := by
  obtain ⟨zo, ho⟩ := htop (lineAt w.args.A0 w.args.B0 t).x (lineAt w.args.A0 w.args.B0 t).y 0
  obtain ⟨zu, hu⟩ := hbot (lineAt w.args.A0 w.args.B0 t).x (lineAt w.args.A0 w.args.B0 t).y 0
  have h1 : (Wing.teTop w).call t = .ok ⟨(lineAt w.args.A0 w.args.B0 t).x, (lineAt w.args.A0 w.args.B0 t).y,
      (lineAt w.args.A0 w.args.B0 t).z + zo⟩ := by
    simp only [Wing.teTop, TrailingEdgePath, offsetPathAt, Line, bind, Except.bind, ho, pure, Except.pure, Except.ok.injEq]
    ext <;> simp
  have h2 : (Wing.teBot w).call t = .ok ⟨(lineAt w.args.A0 w.args.B0 t).x, (lineAt w.args.A0 w.args.B0 t).y,
      (lineAt w.args.A0 w.args.B0 t).z + zu⟩ := by
    simp only [Wing.teBot, TrailingEdgePath, offsetPathAt, Line, bind, Except.bind, hu, pure, Except.pure, Except.ok.injEq]
    ext <;> simp
  refine ⟨_, _, zo, zu, ho, hu, rfl, rfl, h1, h2, ?_⟩
  simp only [Wing.teMean, GeometricMeanPathFunction, meanPathAt, h1, h2, bind, Except.bind, pure, Except.pure, Except.ok.injEq]
  ext <;> simp <;> ring

/-- Every wing whose tip closure succeeds, with a total leading edge line from `B0` to `TT`, both break parameters, and vertical
thickness functions generates. -/
theorem Wing.generates_of_tip (ptan : ℝ → ℝ) (w : Wing.State) (t2 : ℝ) (res : ℕ) (name : Option String) (h : Heap) (id : ℕ)
    (hid : h id = Wing.comp ptan w res name) (hty : w.args.lineType.toLower = "bezier") (htele : ∃ l, Wing.tele ptan w = .ok l)
    (htail : w.args.tail_option = "FLAP") (hcl : w.args.close_wing = false) (ht2 : w.t_B2 = some t2)
    (htot : ∀ t, ∃ p, w.args.line.call t = .ok p) (h0 : w.args.line.call 0 = .ok w.args.B0)
    (h1 : w.args.line.call 1 = .ok w.args.TT) (htop : Vertical w.args.top_tf) (hbot : Vertical w.args.bot_tf) :
    (generatePatches h id).1 = .ok () := by
  rw [Wing.generated hid]
  have lt : ∀ a b : V, ∀ t : ℝ, 0 ≤ t → t ≤ 1 → ∃ p, (Line a b).call t = .ok p := fun a b t _ _ => ⟨_, rfl⟩
  have st : ∀ a b : ℝ, ∀ t : ℝ, 0 ≤ t → t ≤ 1 → ∃ p, (SubRangedPath w.args.line a b).call t = .ok p :=
    fun a b t _ _ => htot _
  have st' : ∀ a b : ℝ, ∀ t : ℝ, 0 ≤ t → t ≤ 1 → ∃ p, (SubRangedPath (SubRangedPath w.args.line a b) 1 0).call t = .ok p :=
    fun a b t _ _ => htot _
  have s0 : ∀ (p : PathObj) (a b : ℝ), (SubRangedPath p a b).call 0 = p.call a := by
    intro p a b; simp [SubRangedPath]
  have s1 : ∀ (p : PathObj) (a b : ℝ), (SubRangedPath p a b).call 1 = p.call b := by
    intro p a b; simp [SubRangedPath]
  obtain ⟨B1, hB1⟩ := htot w.t_B1
  obtain ⟨p0, hp0, -⟩ := coons_sides (SubRangedPath w.args.line 0 w.t_B1) (Line w.args.A1 B1) (Line w.args.A0 w.args.A1)
    (Line w.args.A0 w.args.B0) (st _ _) (lt _ _) (lt _ _) (lt _ _) (by rw [line_zero, line_zero])
    (by rw [line_zero, line_one]) (by rw [s0, line_one, h0]) (by rw [s1, line_one, hB1])
  obtain ⟨p1, hp1, -⟩ := coons_sides (SubRangedPath w.args.line w.t_B1 t2) (SubRangedPath w.args.line 1 t2)
    (Line w.args.A1 w.args.TT) (Line w.args.A1 B1) (st _ _) (st _ _) (lt _ _) (lt _ _) (by rw [line_zero, line_zero])
    (by rw [s0, line_one, h1]) (by rw [s0, line_one, hB1]) (by rw [s1, s1])
  obtain ⟨f0, hf0, -⟩ := coons_sides (SubRangedPath (SubRangedPath w.args.line 0 w.t_B1) 1 0) (Line w.args.A0 w.args.B0)
    (Line w.args.A1 w.args.A0) (Line w.args.A1 B1) (st' _ _) (lt _ _) (lt _ _) (lt _ _) (by rw [line_zero, line_zero])
    (by rw [line_zero, line_one]) (by rw [s0, s1, line_one, hB1]) (by rw [s1, s0, line_one, h0])
  obtain ⟨f1, hf1, -⟩ := coons_sides (SubRangedPath (SubRangedPath w.args.line w.t_B1 t2) 1 0) (Line w.args.A1 B1)
    (Line w.args.TT w.args.A1) (SubRangedPath w.args.line 1 t2) (st' _ _) (lt _ _) (lt _ _) (st _ _)
    (by rw [line_zero, s0, h1]) (by rw [line_zero, line_one]) (by rw [s0, s1, s1]) (by rw [s1, s0, line_one, hB1])
  have hpl : planform w = .ok (p0, p1, f0, f1) := by
    unfold planform
    simp only [hty, ne_eq, not_true_eq_false, if_false, pure_eq, ok_bind, hB1, hp0, ht2, num, hp1, hf0, hf1]
  have hsk : ∃ l, skins w = .ok l := by
    unfold skins
    rw [hpl]
    exact ⟨_, rfl⟩
  have hle : ∃ l, leadingEdge ptan w = .ok l := by
    unfold leadingEdge
    simp only [ht2, num, ok_bind]
    exact ⟨_, rfl⟩
  have hTop : ∀ t, ∃ z, (teTop w).call t = .ok z := fun t => by
    obtain ⟨_, _, _, _, -, -, -, -, h, -⟩ := Wing.te_points w htop hbot t; exact ⟨_, h⟩
  have hBot : ∀ t, ∃ z, (teBot w).call t = .ok z := fun t => by
    obtain ⟨_, _, _, _, -, -, -, -, -, h, -⟩ := Wing.te_points w htop hbot t; exact ⟨_, h⟩
  have hMean : ∀ t, ∃ z, (teMean w).call t = .ok z := fun t => by
    obtain ⟨_, _, _, _, -, -, -, -, -, -, h⟩ := Wing.te_points w htop hbot t; exact ⟨_, h⟩
  have hflap : ∃ l, flap w = .ok l := by
    unfold flap
    have hm : ∀ (te : PathObj), (∀ t, ∃ p, te.call t = .ok p) → ∀ side, side = "top" ∨ side = "bot" →
        ∃ F, MeanTrailingEdgePatch (teMean w) te w.args.flap_length w.args.flap_angle side = .ok F := by
      intro te hte side hs
      obtain ⟨z0, hz0⟩ := hMean 0
      obtain ⟨z1, hz1⟩ := hMean 1
      obtain ⟨q0, hq0⟩ := hte 0
      obtain ⟨q1, hq1⟩ := hte 1
      unfold MeanTrailingEdgePatch
      rcases hs with rfl | rfl
      · simp only [true_or, if_true, hz0, hz1, ok_bind, pure_eq, line_zero, line_one, hq0, hq1]
        obtain ⟨F, hF, -⟩ := coons_ruled _ te _ _ q0 q1 (line_zero _ _) (line_one _ _) hq0 hq1
        exact ⟨F, hF⟩
      · simp only [or_true, if_true, hz0, hz1, ok_bind, pure_eq, line_zero, line_one, hq0, hq1,
          show ("bot" = "top") = False by decide, if_false]
        obtain ⟨F, hF, -⟩ := coons_ruled te _ q0 q1 _ _ hq0 hq1 (line_zero _ _) (line_one _ _)
        exact ⟨F, hF⟩
    obtain ⟨F, hF⟩ := hm (teTop w) hTop "top" (.inl rfl)
    obtain ⟨G, hG⟩ := hm (teBot w) hBot "bot" (.inr rfl)
    simp only [htail, ne_eq, not_true_eq_false, if_false, pure_eq, ok_bind, hF, hG]
    exact ⟨_, rfl⟩
  obtain ⟨l1, e1⟩ := hsk
  obtain ⟨l2, e2⟩ := hle
  obtain ⟨l3, e3⟩ := hflap
  obtain ⟨l4, e4⟩ := htele
  have hst : stages ptan w = [skins w, leadingEdge ptan w, flap w, tele ptan w] := by
    unfold stages; rw [hcl]; rfl
  have hF : List.Forall₂ (fun r l => r = .ok l) (stages ptan w) [l1, l2, l3, l4] := by
    rw [hst]; exact .cons e1 (.cons e2 (.cons e3 (.cons e4 .nil)))
  refine ⟨[l1, l2, l3, l4], hF, ?_⟩
  have hg : generatePatches h id = (((h id).genInto (runStages (stages ptan w))).1,
      h.upd id ((h id).genInto (runStages (stages ptan w))).2) := by
    unfold generatePatches Composite.genLeaf
    have : (h id).gen = .into fun _ => runStages (stages ptan w) := by rw [hid]; rfl
    simp only [this]
  rw [hg]
  simp only [upd_self]
  have hr : runStages (stages ptan w) = ⟨[l1, l2, l3, l4].flatten, [], [], none⟩ := by
    rw [hst, e1, e2, e3, e4]; simp [runStages]
  rw [hr, hid]
  apply Dict.setAll_nil_nodup
  rw [List.map_flatten, names_of_stages hF]
  exact stageNames_nodup w

/-- Every wing with a flat leading edge, a total leading edge line from `B0` to `TT`, both break parameters, and vertical
thickness functions generates. -/
theorem Wing.flat_generates (ptan : ℝ → ℝ) (w : Wing.State) (t2 : ℝ) (res : ℕ) (name : Option String) (h : Heap) (id : ℕ)
    (hid : h id = Wing.comp ptan w res name) (hty : w.args.lineType.toLower = "bezier") (hLE : w.LE_TYPE = "FLAT")
    (htail : w.args.tail_option = "FLAP") (hcl : w.args.close_wing = false) (ht2 : w.t_B2 = some t2)
    (htot : ∀ t, ∃ p, w.args.line.call t = .ok p) (h0 : w.args.line.call 0 = .ok w.args.B0)
    (h1 : w.args.line.call 1 = .ok w.args.TT) (htop : Vertical w.args.top_tf) (hbot : Vertical w.args.bot_tf) :
    (generatePatches h id).1 = .ok () := by
  refine Wing.generates_of_tip ptan w t2 res name h id hid hty ?_ htail hcl ht2 htot h0 h1 htop hbot
  unfold Wing.tele Wing.tipEdges
  obtain ⟨zt, zb, -, -, -, -, -, -, ht, hb, hm⟩ := Wing.te_points w htop hbot 1
  simp only [hm, ht, hb, ok_bind, hLE, if_true]
  apply exists_map_ok
  apply coons_lines <;> rfl

theorem cornerClose_refl (u : V) : CornerClose u u := by
  intro i; rw [sub_self, abs_zero]; positivity

theorem cornerClose_of {u v : V} (hx : u.x = v.x) (hy : |u.y - v.y| ≤ 1 / 100000) (hz : |u.z - v.z| ≤ 1 / 100000) :
    CornerClose u v := by
  rw [← approxEq_iff_cornerClose]
  unfold Vec.approxEq Vec.isclose
  have e : ((10 : ℝ) ^ 5)⁻¹ = 1 / 100000 := by norm_num
  refine ⟨?_, ?_, ?_⟩
  · rw [hx, sub_self, abs_zero]; positivity
  · exact hy.trans (le_add_of_nonneg_right (by positivity))
  · exact hz.trans (le_add_of_nonneg_right (by positivity))

theorem coons_meet {n e s w : PathObj} (h : CornersMeet n e s w) : ∃ F, CoonsPatch n e s w = .ok F := by
  obtain ⟨c, hc⟩ := (C23_accepts_iff n e s w _).2 h
  exact ⟨_, by unfold CoonsPatch; rw [hc]; rfl⟩

/-- Every wing with an elliptical leading edge generates, if it has a total leading edge line from `B0` to `TT`, both break
parameters, vertical thickness functions whose lower value at `B0` is above the upper one, and a width there that is positive and
not too small for the numerical tangent. -/
theorem Wing.elliptic_generates (ptan : ℝ → ℝ) (hT : TanLike ptan) (w : Wing.State) (t2 : ℝ) (res : ℕ) (name : Option String)
    (h : Heap) (id : ℕ) (hid : h id = Wing.comp ptan w res name) (hty : w.args.lineType.toLower = "bezier")
    (hLE : w.LE_TYPE ≠ "FLAT")
    (htail : w.args.tail_option = "FLAP") (hcl : w.args.close_wing = false) (ht2 : w.t_B2 = some t2)
    (htot : ∀ t, ∃ p, w.args.line.call t = .ok p) (h0 : w.args.line.call 0 = .ok w.args.B0)
    (h1 : w.args.line.call 1 = .ok w.args.TT) (htop : Vertical w.args.top_tf) (hbot : Vertical w.args.bot_tf) (zo zu b : ℝ)
    (ho : w.args.top_tf w.args.B0.x w.args.B0.y 0 = .ok ⟨0, 0, zo⟩)
    (hu : w.args.bot_tf w.args.B0.x w.args.B0.y 0 = .ok ⟨0, 0, zu⟩) (hlt : zo < zu) (wf : ℝ → Res ℝ) (hwf : w.LE_wf = some wf)
    (hb : wf 0 = .ok b) (hbp : 0 < b) (hfit : PoleFits ptan ((zu - zo) / 2) b) :
    (generatePatches h id).1 = .ok () := by
  refine Wing.generates_of_tip ptan w t2 res name h id hid hty ?_ htail hcl ht2 htot h0 h1 htop hbot
  have hB : lineAt w.args.A0 w.args.B0 1 = w.args.B0 := Except.ok.inj (line_one w.args.A0 w.args.B0)
  obtain ⟨zt, zb, zo', zu', ho', hu', rfl, rfl, hpt, hpb, hm⟩ := Wing.te_points w htop hbot 1
  rw [hB] at ho' hu' hpt hpb hm
  rw [ho] at ho'
  rw [hu] at hu'
  obtain rfl : zo = zo' := congrArg Vec.z (Except.ok.inj ho')
  obtain rfl : zu = zu' := congrArg Vec.z (Except.ok.inj hu')
  set B := w.args.B0
  have eT : (B.z + zo + (B.z + zu)) / 2 - (B.z + zo) = (zu - zo) / 2 := by ring
  have eB : (B.z + zo + (B.z + zu)) / 2 - (B.z + zu) = -((zu - zo) / 2) := by ring
  have hth : (zu - zo) / 2 ≠ 0 := by intro h; linarith
  have habs : |(zu - zo) / 2| = (zu - zo) / 2 := abs_of_pos (by linarith)
  have hfit' : PoleFits ptan (-((zu - zo) / 2)) b := by
    obtain ⟨⟨a1, a2, a3⟩, a4⟩ := hfit
    exact ⟨⟨a1, by rwa [abs_neg], by rwa [abs_neg]⟩, a4⟩
  obtain ⟨-, qt, t1, t2, t3, pt, t4, t5, t6, t7⟩ :=
    elipse_arc ptan hT ⟨B.x, B.y, (B.z + zo + (B.z + zu)) / 2⟩ ((zu - zo) / 2) b hth hbp hfit
  obtain ⟨⟨qb, b1, b2, b3, pb, b4, b5, b6, b7⟩, -⟩ :=
    elipse_arc ptan hT ⟨B.x, B.y, (B.z + zo + (B.z + zu)) / 2⟩ (-((zu - zo) / 2)) b (neg_ne_zero.2 hth) hbp hfit'
  rw [habs] at t7
  rw [abs_neg, habs] at b7
  unfold Wing.tele Wing.tipEdges
  simp only [hm, hpt, hpb, ok_bind, if_neg hLE, eT, eB, neg_eq_zero, hth, or_self, if_false, pure_eq, hwf, widthFn,
    Option.getD_some, hb, t1, b1]
  apply exists_map_ok
  apply coons_meet
  refine ⟨_, _, _, _, _, _, _, _, line_zero _ _, line_one _ _, b3, b4, t4, t3, line_zero _ _, line_one _ _, ?_,
    cornerClose_refl _, cornerClose_refl _, ?_⟩
  · refine cornerClose_of t5.symm (by rwa [abs_sub_comm]) ?_
    rw [abs_sub_comm]
    convert t7 using 2
    simp only; ring
  · refine cornerClose_of b5 b6 ?_
    convert b7 using 2
    simp only; ring

/-! ## C62 -/

/-- The patch `P` covers the part `[a,b]` of the leading edge surface `E`: it runs, in its first parameter, from `b` to `a`. -/
def Spec.Covers (P : Surf) (E : ℝ → ℝ → Res V) (a b : ℝ) : Prop := ∀ u r, P u r = E ((1 - u) * b + u * a) r

/-- If three patches cover the parts between `0 ≤ t1 ≤ t2 ≤ 1`, every point of the surface over `[0,1]` is on one of them. -/
theorem Spec.covers_all (P0 P1 P2 : Surf) (E : ℝ → ℝ → Res V) (t1 t2 : ℝ) (h0 : Covers P0 E 0 t1) (h1 : Covers P1 E t1 t2)
    (h2 : Covers P2 E t2 1) (t r : ℝ) (ht0 : 0 ≤ t) (ht1 : t ≤ 1) :
    ∃ u, 0 ≤ u ∧ u ≤ 1 ∧ (P0 u r = E t r ∨ P1 u r = E t r ∨ P2 u r = E t r) := by
  have key : ∀ P a b, Covers P E a b → a ≤ t → t ≤ b → ∃ u, 0 ≤ u ∧ u ≤ 1 ∧ P u r = E t r := by
    intro P a b hP ha hb
    by_cases hab : a = b
    · refine ⟨0, le_rfl, zero_le_one, ?_⟩
      rw [hP]
      congr 1
      linarith
    · have hd : 0 < b - a := by
        have : a ≤ b := ha.trans hb
        exact sub_pos.2 (lt_of_le_of_ne this hab)
      refine ⟨(b - t) / (b - a), div_nonneg (by linarith) hd.le, (div_le_one hd).2 (by linarith), ?_⟩
      rw [hP]
      congr 1
      field_simp
      ring
  by_cases c1 : t ≤ t1
  · obtain ⟨u, a, b, c⟩ := key P0 0 t1 h0 ht0 c1
    exact ⟨u, a, b, .inl c⟩
  · by_cases c2 : t ≤ t2
    · obtain ⟨u, a, b, c⟩ := key P1 t1 t2 h1 (by linarith) c2
      exact ⟨u, a, b, .inr (.inl c)⟩
    · obtain ⟨u, a, b, c⟩ := key P2 t2 1 h2 (by linarith) ht1
      exact ⟨u, a, b, .inr (.inr c)⟩

/-- The leading edge line moved by a thickness function. -/
def Spec.MovedLine (line : PathObj) (f : OffFn) (t : ℝ) (p : V) : Prop :=
  ∃ q o, line.call t = .ok q ∧ f q.x q.y 0 = .ok o ∧ p = q + o

/-- The flat leading edge at parameter `t`: the vertical join of upper and lower edge. -/
def Spec.FlatEdge (line : PathObj) (top bot : OffFn) (E : ℝ → ℝ → Res V) : Prop :=
  ∀ t r p, E t r = .ok p ↔ ∃ a b, MovedLine line top t a ∧ MovedLine line bot t b ∧
    p = ⟨a.x, a.y, (1 - r) * a.z + r * b.z⟩

theorem offsetPathAt_ok {p : PathObj} {f : OffFn} {t : ℝ} {v : V} : offsetPathAt p f t = .ok v ↔ MovedLine p f t v := by
  constructor
  · intro h
    obtain ⟨q, h1, h⟩ := bind_ok.1 h
    obtain ⟨o, h2, h⟩ := bind_ok.1 h
    exact ⟨q, o, h1, h2, (pure_ok.1 h).symm⟩
  · rintro ⟨q, o, h1, h2, rfl⟩
    simp only [offsetPathAt, h1, h2, bind, Except.bind, pure, Except.pure]

namespace Wing

theorem init_ok {find : (ℝ → Res ℝ) → Res ℝ} {a : Args} {w : State} (hw : init find a = .ok w) :
    w.args = a ∧ w.LE_TYPE = a.LE_type.toUpper ∧ (∀ t, a.t_B1 = some t → w.t_B1 = t) ∧
      (a.t_B2 = none → w.t_B2 = some (0.5 * (1 + w.t_B1))) ∧ ((∃ t, a.t_B2 = some t) → w.t_B2 = a.t_B1) := by
  unfold init at hw
  obtain ⟨t, h1, hw⟩ := bind_ok.1 hw
  rw [← pure_ok.1 hw]
  refine ⟨rfl, rfl, ?_, ?_, ?_⟩
  · intro t' ht
    simp only [breakB1, ht] at h1
    exact (Except.ok.inj h1).symm
  · intro h; simp only [breakB2, h]
  · rintro ⟨t, h⟩; simp only [breakB2, h]

/-- The flat leading edge surface. -/
noncomputable def flatEdge (w : State) (t r : ℝ) : Res V := FlatLeadingEdgePatchFunction (topEdge w) (botEdge w) t t 0 r

theorem flat_covers (w : State) (a b : ℝ) : Covers (FlatLeadingEdgePatchFunction (topEdge w) (botEdge w) a b) (flatEdge w) a b := by
  intro u r
  unfold flatEdge FlatLeadingEdgePatchFunction
  have e : b - u * (b - a) = (1 - u) * b + u * a := by ring
  simp only [sub_self, mul_zero, sub_zero, e]

theorem flatEdge_spec (w : State) : FlatEdge w.args.line w.args.top_tf w.args.bot_tf (flatEdge w) := by
  intro t r p
  unfold flatEdge FlatLeadingEdgePatchFunction
  simp only [sub_self, mul_zero, sub_zero]
  constructor
  · intro h
    obtain ⟨a, h1, h⟩ := bind_ok.1 h
    obtain ⟨b, h2, h⟩ := bind_ok.1 h
    exact ⟨a, b, offsetPathAt_ok.1 h1, offsetPathAt_ok.1 h2, (pure_ok.1 h).symm⟩
  · rintro ⟨a, b, h1, h2, rfl⟩
    have h1' : (topEdge w).call t = .ok a := offsetPathAt_ok.2 h1
    have h2' : (botEdge w).call t = .ok b := offsetPathAt_ok.2 h2
    rw [h1', h2']
    rfl

/-- The elliptical leading edge surface of one side (`C34_mean` says where its points are). -/
noncomputable def meanEdge (ptan : ℝ → ℝ) (w : State) (side : String) (t r : ℝ) : Res V :=
  MeanLeadingEdgePatchFunction ptan (GeometricMeanPathFunction (topEdge w) (botEdge w))
    (if side = "top" then topEdge w else botEdge w) (widthFn w.LE_wf) t t side 0 r

theorem mean_covers (ptan : ℝ → ℝ) (w : State) (side : String) (a b : ℝ) :
    Covers (MeanLeadingEdgePatchFunction ptan (GeometricMeanPathFunction (topEdge w) (botEdge w))
      (if side = "top" then topEdge w else botEdge w) (widthFn w.LE_wf) a b side) (meanEdge ptan w side) a b := by
  intro u r
  unfold meanEdge MeanLeadingEdgePatchFunction
  have e : b - u * (b - a) = (1 - u) * b + u * a := by ring
  simp only [sub_self, mul_zero, sub_zero, e]

end Wing

/-- C62, what holds: a wing uses the supplied `t_B1`; if `t_B2` is not supplied it is half way between `t_B1` and `1`; if the wing
generates and its leading edge is not flat, the three leading edge patches of each side cover `[0,t_B1]`, `[t_B1,t_B2]`,
`[t_B2,1]`; if it is flat, the first two patches cover the first two parts.
Missing: a supplied `t_B2` is ignored, and the third flat patch covers the wrong part (`C62_t_B2_violated`,
`C62_flat_violated`, `C62_only_t_B2_violated`). -/
theorem C62_breaks_partial (find : (ℝ → Res ℝ) → Res ℝ) (ptan : ℝ → ℝ) (a : Wing.Args) (w : Wing.State)
    (hw : Wing.init find a = .ok w) (res : ℕ) (name : Option String) (h : Heap) (id : ℕ)
    (hid : h id = Wing.comp ptan w res name) (hok : (generatePatches h id).1 = .ok ()) :
    (∀ t, a.t_B1 = some t → w.t_B1 = t) ∧ (a.t_B2 = none → w.t_B2 = some ((1 + w.t_B1) / 2)) ∧
    ∃ t2, w.t_B2 = some t2 ∧
    (a.LE_type.toUpper ≠ "FLAT" → ∀ side, side = "top" ∨ side = "bot" → ∃ P : ℕ → Surf,
      (∀ k < 3, ((generatePatches h id).2 id).patches.get? ("LE_" ++ side ++ "_patch_" ++ toString k) = some (P k)) ∧
      Covers (P 0) (Wing.meanEdge ptan w side) 0 w.t_B1 ∧ Covers (P 1) (Wing.meanEdge ptan w side) w.t_B1 t2 ∧
      Covers (P 2) (Wing.meanEdge ptan w side) t2 1) ∧
    (a.LE_type.toUpper = "FLAT" → ∃ (P : ℕ → Surf) (E : ℝ → ℝ → Res V), FlatEdge a.line a.top_tf a.bot_tf E ∧
      (∀ k < 3, ((generatePatches h id).2 id).patches.get? ("LE_patch" ++ toString k) = some (P k)) ∧
      Covers (P 0) E 0 w.t_B1 ∧ Covers (P 1) E w.t_B1 t2) := by
  obtain ⟨ha, hT, i1, i2, -⟩ := Wing.init_ok hw
  obtain ⟨l1, l2, rest, h1, h2, hp, -⟩ := Wing.generated_patches hid hok
  obtain ⟨p0, p1, f0, f1, hpl, rfl⟩ := Wing.skins_ok h1
  obtain ⟨t2, ht2, rfl⟩ := Wing.le_ok h2
  refine ⟨i1, ?_, t2, ht2, ?_, ?_⟩
  · intro h
    rw [i2 h]
    congr 1
    ring
  · intro hne side hs
    rw [hp, if_neg (by rwa [hT])]
    let M := fun (side : String) (a b : ℝ) => MeanLeadingEdgePatchFunction ptan
      (GeometricMeanPathFunction (Wing.topEdge w) (Wing.botEdge w)) (if side = "top" then Wing.topEdge w else Wing.botEdge w)
      (widthFn w.LE_wf) a b side
    have hM : ∀ side a b, Covers (M side a b) (Wing.meanEdge ptan w side) a b := fun side a b =>
      Wing.mean_covers ptan w side a b
    rcases hs with rfl | rfl
    · refine ⟨fun k => if k = 0 then M "top" 0 w.t_B1 else if k = 1 then M "top" w.t_B1 t2 else M "top" t2 1, ?_,
        hM "top" _ _, hM "top" _ _, hM "top" _ _⟩
      intro k hk
      rcases (by omega : k = 0 ∨ k = 1 ∨ k = 2) with rfl | rfl | rfl <;> rfl
    · refine ⟨fun k => if k = 0 then M "bot" 0 w.t_B1 else if k = 1 then M "bot" w.t_B1 t2 else M "bot" t2 1, ?_,
        hM "bot" _ _, hM "bot" _ _, hM "bot" _ _⟩
      intro k hk
      rcases (by omega : k = 0 ∨ k = 1 ∨ k = 2) with rfl | rfl | rfl <;> rfl
  · intro he
    rw [hp, if_pos (by rwa [hT])]
    refine ⟨fun k => if k = 0 then FlatLeadingEdgePatchFunction (Wing.topEdge w) (Wing.botEdge w) 0 w.t_B1 else if k = 1 then
      FlatLeadingEdgePatchFunction (Wing.topEdge w) (Wing.botEdge w) w.t_B1 t2 else
      FlatLeadingEdgePatchFunction (Wing.topEdge w) (Wing.botEdge w) w.t_B1 1, Wing.flatEdge w, ?_, ?_,
      Wing.flat_covers w _ _, Wing.flat_covers w _ _⟩
    · rw [← ha]; exact Wing.flatEdge_spec w
    · intro k hk
      rcases (by omega : k = 0 ∨ k = 1 ∨ k = 2) with rfl | rfl | rfl <;> rfl

/-- C62 is violated: a supplied `t_B2` is never used if `t_B1` is supplied too; the outer planform patch of the wing then ends at
the leading edge point of `t_B1`. -/
theorem C62_t_B2_violated (find : (ℝ → Res ℝ) → Res ℝ) (ptan : ℝ → ℝ) (a : Wing.Args) (w : Wing.State)
    (hw : Wing.init find a = .ok w) (t1 t2 : ℝ) (h1 : a.t_B1 = some t1) (h2 : a.t_B2 = some t2) (hne : t1 ≠ t2) (res : ℕ)
    (name : Option String) (h : Heap) (id : ℕ) (hid : h id = Wing.comp ptan w res name) :
    w.t_B2 ≠ some t2 ∧ ((generatePatches h id).1 = .ok () → ∃ P, ((generatePatches h id).2 id).patches.get? "bot_patch_1" = some P ∧
      ∀ p, P 1 1 = .ok p → ∃ q o, a.line.call t1 = .ok q ∧ a.bot_tf q.x q.y q.z = .ok o ∧ p = q + o) := by
  obtain ⟨ha, hT, i1, -, i2⟩ := Wing.init_ok hw
  have e : w.t_B2 = some t1 := by rw [i2 ⟨t2, h2⟩, h1]
  constructor
  · rw [e]; simpa using hne
  · intro hok
    obtain ⟨l1, l2, rest, g1, g2, hp, -⟩ := Wing.generated_patches hid hok
    obtain ⟨p0, p1, f0, f1, hpl, rfl⟩ := Wing.skins_ok g1
    obtain ⟨B1, t2', hB1, ht2, -, hp1, -, -⟩ := Wing.planform_ok hpl
    rw [e] at ht2
    cases ht2
    refine ⟨OffsetPatchFunction p1 w.args.bot_tf, by rw [hp]; rfl, ?_⟩
    intro p hp
    obtain ⟨q, o, k1, k2, rfl⟩ := offsetPatch_ok.1 hp
    refine ⟨q, o, ?_, by rw [← ha]; exact k2, rfl⟩
    obtain ⟨c, hc, hp1⟩ := bind_ok.1 hp1
    rw [← pure_ok.1 hp1] at k1
    obtain ⟨c1, c2, c3, c4, c5, c6, c7, c8, b1, b2, b3, b4, b5, b6, b7, b8, -, -, -, -, hcc⟩ :=
      (Coons.ofEdges_ok_iff _ _ _ _ _ c).1 hc
    obtain ⟨-, hE, -⟩ := C22_edges_general _ _ _ _ _ c hc 1 c2 c4 c6 c8 b2 b4 b6 b8
    rw [hE] at k1
    have : q = c8 := by
      rw [← Except.ok.inj k1]; ext <;> simp
    subst this
    rw [← ha, ← b8]
    simp [SubRangedPath]

/-- C62 is violated: a wing with a supplied `t_B2` but no `t_B1` never generates. -/
theorem C62_only_t_B2_violated (find : (ℝ → Res ℝ) → Res ℝ) (ptan : ℝ → ℝ) (a : Wing.Args) (w : Wing.State)
    (hw : Wing.init find a = .ok w) (t2 : ℝ) (h1 : a.t_B1 = none) (h2 : a.t_B2 = some t2) (res : ℕ)
    (name : Option String) (h : Heap) (id : ℕ) (hid : h id = Wing.comp ptan w res name) :
    (generatePatches h id).1 ≠ .ok () := by
  intro hok
  obtain ⟨-, -, -, -, i2⟩ := Wing.init_ok hw
  obtain ⟨l1, l2, rest, g1, g2, hp, -⟩ := Wing.generated_patches hid hok
  obtain ⟨t, ht, -⟩ := Wing.le_ok g2
  rw [i2 ⟨t2, h2⟩, h1] at ht
  cases ht

/-! ## C91 -/

theorem leadingEdgeWidth_eq (r : ℝ) : leadingEdgeWidth r = .ok (0.01 + 0.18 * r * (1 - r)) := by
  simp only [leadingEdgeWidth, Bezier, Bezier.call, Bezier.work, Bezier.inner, bind, Except.bind, pure, Except.pure,
    Except.ok.injEq]
  simp [List.range_succ, Function.update]
  ring

/-- C91: the default leading edge width is symmetric and lies between `0.01` and `0.055`. -/
theorem C91_width (r : ℝ) (h0 : 0 ≤ r) (h1 : r ≤ 1) :
    ∃ y, leadingEdgeWidth r = .ok y ∧ leadingEdgeWidth (1 - r) = .ok y ∧ 0.01 ≤ y ∧ y ≤ 0.055 := by
  refine ⟨_, leadingEdgeWidth_eq r, ?_, ?_, ?_⟩
  · rw [leadingEdgeWidth_eq]; congr 1; ring
  · nlinarith
  · nlinarith [sq_nonneg (r - 1 / 2)]

/-- The bounds of `C91_width` are attained. -/
example : leadingEdgeWidth 0 = .ok 0.01 ∧ leadingEdgeWidth 0.5 = .ok 0.055 := by
  constructor <;> rw [leadingEdgeWidth_eq] <;> norm_num

/-- C91: the uniform thickness functions move points vertically, the upper one by `-thickness/2`, every other by `+thickness/2`,
so that the two images of a point are `thickness` apart and the point is half way. -/
theorem C91_thickness (t : ℝ) (side : String) (hs : side ≠ "top") (x y z : ℝ) :
    ∃ a b, uniformThickness t "top" x y z = .ok a ∧ uniformThickness t side x y z = .ok b ∧
      a = ⟨0, 0, -t / 2⟩ ∧ b = ⟨0, 0, t / 2⟩ ∧ vdist ((⟨x, y, z⟩ : V) + a) ((⟨x, y, z⟩ : V) + b) = |t| := by
  refine ⟨_, _, rfl, rfl, ?_, ?_, ?_⟩
  · simp
  · simp [hs]
  · rw [← Vec.abs_sub_eq_vdist]
    simp only [if_true, hs, if_false, Vec.abs]
    rw [← Real.sqrt_sq_eq_abs]
    congr 1
    simp
    ring

example : uniformThickness 0.1 "bot" 1 2 3 = .ok ⟨0, 0, 0.1 / 2⟩ := by simp [uniformThickness]

/-- A delta wing with a straight leading edge. -/
noncomputable def deltaWing (LE : String) (t1 t2 : Option ℝ) : Wing.Args where
  A0 := ⟨0, 0, 0⟩
  A1 := ⟨1, 0, 0⟩
  TT := ⟨2, 0, 0⟩
  B0 := ⟨0, 1, 0⟩
  line := Line ⟨0, 1, 0⟩ ⟨2, 0, 0⟩
  t_B1 := t1
  t_B2 := t2
  top_tf := uniformThickness 0.1 "top"
  bot_tf := uniformThickness 0.1 "bot"
  LE_type := LE
  flap_length := 0.5

theorem uniform_vertical (t : ℝ) (side : String) : Vertical (uniformThickness t side) := fun _ _ _ => ⟨_, rfl⟩

theorem lower_bezier : "Bezier".toLower = "bezier" := by
  rw [String.toLower, ← String.toList_inj, String.toList_map]; decide

theorem upper_flat : "flat".toUpper = "FLAT" := by
  rw [String.toUpper, ← String.toList_inj, String.toList_map]; decide

/-- The delta wing with a flat leading edge generates. -/
theorem deltaWing_generates (find : (ℝ → Res ℝ) → Res ℝ) (ptan : ℝ → ℝ) (t1 : ℝ) (t2 : Option ℝ) :
    ∃ w : Wing.State, Wing.init find (deltaWing "flat" (some t1) t2) = .ok w ∧ ∀ h id res name,
      h id = Wing.comp ptan w res name → (generatePatches h id).1 = .ok () := by
  refine ⟨_, rfl, fun h id res name hid => ?_⟩
  cases t2 with
  | none =>
    exact Wing.flat_generates ptan _ _ res name h id hid lower_bezier upper_flat rfl rfl rfl (fun t => ⟨_, rfl⟩)
      (line_zero _ _) (line_one _ _) (uniform_vertical _ _) (uniform_vertical _ _)
  | some t2 =>
    exact Wing.flat_generates ptan _ _ res name h id hid lower_bezier upper_flat rfl rfl rfl (fun t => ⟨_, rfl⟩)
      (line_zero _ _) (line_one _ _) (uniform_vertical _ _) (uniform_vertical _ _)

/-- C62 is violated: with a flat leading edge the third patch covers `[t_B1,1]`, so that it overlaps the second. -/
theorem C62_flat_violated (find : (ℝ → Res ℝ) → Res ℝ) (ptan : ℝ → ℝ) (a : Wing.Args) (w : Wing.State)
    (hw : Wing.init find a = .ok w) (hF : a.LE_type.toUpper = "FLAT") (res : ℕ) (name : Option String) (h : Heap) (id : ℕ)
    (hid : h id = Wing.comp ptan w res name) (hok : (generatePatches h id).1 = .ok ()) :
    ∃ t2 P1 P2 E, w.t_B2 = some t2 ∧ ((generatePatches h id).2 id).patches.get? "LE_patch1" = some P1 ∧
      ((generatePatches h id).2 id).patches.get? "LE_patch2" = some P2 ∧ FlatEdge a.line a.top_tf a.bot_tf E ∧
      Covers P1 E w.t_B1 t2 ∧ Covers P2 E w.t_B1 1 := by
  obtain ⟨ha, hT, i1, i2, -⟩ := Wing.init_ok hw
  obtain ⟨l1, l2, rest, h1, h2, hp, -⟩ := Wing.generated_patches hid hok
  obtain ⟨p0, p1, f0, f1, hpl, rfl⟩ := Wing.skins_ok h1
  obtain ⟨t2, ht2, rfl⟩ := Wing.le_ok h2
  rw [hp, if_pos (by rwa [hT])]
  refine ⟨t2, FlatLeadingEdgePatchFunction (Wing.topEdge w) (Wing.botEdge w) w.t_B1 t2,
    FlatLeadingEdgePatchFunction (Wing.topEdge w) (Wing.botEdge w) w.t_B1 1, Wing.flatEdge w, ht2, rfl, rfl, ?_,
    Wing.flat_covers w _ _, Wing.flat_covers w _ _⟩
  rw [← ha]; exact Wing.flatEdge_spec w

/-- A concrete case: the point of the delta wing's leading edge at `0.6` is an interior point of two patches. -/
theorem C62_overlap_violated (find : (ℝ → Res ℝ) → Res ℝ) (ptan : ℝ → ℝ) :
    ∃ w : Wing.State, Wing.init find (deltaWing "flat" (some 0.5) none) = .ok w ∧ ∀ h id res name,
      h id = Wing.comp ptan w res name → (generatePatches h id).1 = .ok () ∧
      ∃ P1 P2 u1 u2 p, ((generatePatches h id).2 id).patches.get? "LE_patch1" = some P1 ∧
        ((generatePatches h id).2 id).patches.get? "LE_patch2" = some P2 ∧ 0 < u1 ∧ u1 < 1 ∧ 0 < u2 ∧ u2 < 1 ∧
        P1 u1 (1 / 2) = .ok p ∧ P2 u2 (1 / 2) = .ok p := by
  obtain ⟨w, hw, hg⟩ := deltaWing_generates find ptan 0.5 none
  refine ⟨w, hw, fun h id res name hid => ⟨hg h id res name hid, ?_⟩⟩
  obtain ⟨t2, P1, P2, E, ht2, g1, g2, hE, c1, c2⟩ :=
    C62_flat_violated find ptan _ w hw upper_flat res name h id hid (hg h id res name hid)
  obtain ⟨-, -, i1, i2, -⟩ := Wing.init_ok hw
  have e1 := i1 0.5 rfl
  have e2 := i2 rfl
  rw [ht2, e1] at e2
  have e2 := Option.some.inj e2
  obtain ⟨p, hp⟩ : ∃ p, E 0.6 (1 / 2) = .ok p := by
    refine ⟨_, (hE _ _ _).2 ⟨_, _, ⟨_, _, rfl, rfl, rfl⟩, ⟨_, _, rfl, rfl, rfl⟩, rfl⟩⟩
  refine ⟨P1, P2, 0.6, 0.8, p, g1, g2, by norm_num, by norm_num, by norm_num, by norm_num, ?_, ?_⟩
  · rw [c1, e1, e2, ← hp]; norm_num
  · rw [c2, e1, ← hp]; norm_num

/-- The hypotheses of `C62_t_B2_violated` and `C63_wing` are met by the delta wing. -/
example (find : (ℝ → Res ℝ) → Res ℝ) (ptan : ℝ → ℝ) : ∃ w h, Wing.init find (deltaWing "flat" (some 0.5) (some 0.75)) = .ok w ∧
    h 0 = Wing.comp ptan w ∧ (generatePatches h 0).1 = .ok () := by
  obtain ⟨w, hw, hg⟩ := deltaWing_generates find ptan 0.5 (some 0.75)
  exact ⟨w, fun _ => Wing.comp ptan w, hw, rfl, hg _ _ _ _ rfl⟩

/-- The delta wing with the default elliptical leading edge generates, with a numerical tangent that is `±10^16` at the poles. -/
theorem deltaWing_elliptic (find : (ℝ → Res ℝ) → Res ℝ) (t1 : ℝ) (t2 : Option ℝ) :
    ∃ w : Wing.State, Wing.init find (deltaWing "custom" (some t1) t2) = .ok w ∧ ∀ h id res name,
      h id = Wing.comp ieeeTan w res name → (generatePatches h id).1 = .ok () := by
  refine ⟨_, rfl, fun h id res name hid => ?_⟩
  have e : leadingEdgeWidth 0 = .ok 0.01 := by rw [leadingEdgeWidth_eq]; norm_num
  have ho : (deltaWing "custom" (some t1) t2).top_tf (deltaWing "custom" (some t1) t2).B0.x
      (deltaWing "custom" (some t1) t2).B0.y 0 = .ok ⟨0, 0, -0.05⟩ := by
    simp [deltaWing, uniformThickness]; norm_num
  have hu : (deltaWing "custom" (some t1) t2).bot_tf (deltaWing "custom" (some t1) t2).B0.x
      (deltaWing "custom" (some t1) t2).B0.y 0 = .ok ⟨0, 0, 0.05⟩ := by
    simp [deltaWing, uniformThickness]; norm_num
  have hfit : PoleFits ieeeTan ((0.05 - -0.05) / 2) 0.01 :=
    ieeeTan_fits _ _ (by rw [abs_of_pos] <;> norm_num) (by norm_num)
  have hne : "custom".toUpper ≠ "FLAT" := by
    rw [String.toUpper, ne_eq, ← String.toList_inj, String.toList_map]; decide
  cases t2 with
  | none =>
    exact Wing.elliptic_generates ieeeTan ieeeTan_like _ _ res name h id hid lower_bezier hne rfl rfl rfl (fun t => ⟨_, rfl⟩)
      (line_zero _ _) (line_one _ _) (uniform_vertical _ _) (uniform_vertical _ _) _ _ _ ho hu (by norm_num) leadingEdgeWidth
      rfl e (by norm_num) hfit
  | some t2 =>
    exact Wing.elliptic_generates ieeeTan ieeeTan_like _ _ res name h id hid lower_bezier hne rfl rfl rfl (fun t => ⟨_, rfl⟩)
      (line_zero _ _) (line_one _ _) (uniform_vertical _ _) (uniform_vertical _ _) _ _ _ ho hu (by norm_num) leadingEdgeWidth
      rfl e (by norm_num) hfit

end HV
