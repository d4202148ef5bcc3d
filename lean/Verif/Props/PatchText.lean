import Verif.Props.PathText

/-!
# C168: the texts of Coons patches and of the faces of spheres
-/

namespace HV
open Spec

/-- C168 for Coons patches given by edges: two of them have the same text only if their four edges look the same when printed and their offsets
have the same text, and a Coons patch given by edges never has the text of one given by corners. -/
theorem C168_coons_edges (num txt deg : ℝ → String) (hn : ∀ x, PlainText (num x)) (n e s w n' e' s' w' : PrintedPath) (o o' : String)
    (hp : ∀ p ∈ [n, e, s, w, n', e', s', w'], Told p) :
    ((PrintedPatch.coonsEdges n e s w o).repr num txt deg = (PrintedPatch.coonsEdges n' e' s' w' o').repr num txt deg →
      SamePath num n n' ∧ SamePath num e e' ∧ SamePath num s s' ∧ SamePath num w w' ∧ o = o') ∧
    ∀ p00 p10 p11 p01 : V, (PrintedPatch.coonsEdges n e s w o).repr num txt deg ≠ (PrintedPatch.coonsCorners p00 p10 p11 p01 o').repr num txt deg := by
  simp only [List.mem_cons, List.not_mem_nil, or_false, forall_eq_or_imp, forall_eq] at hp
  obtain ⟨h1, h2, h3, h4, k1, k2, k3, k4⟩ := hp
  constructor
  · intro h
    have h := congrArg String.toList h
    simp only [PrintedPatch.repr, String.toList_append, List.append_assoc] at h
    obtain ⟨a1, h⟩ := path_cut num txt hn _ _ h1 k1 _ _ (List.append_cancel_left (List.append_cancel_left h))
    obtain ⟨a2, h⟩ := path_cut num txt hn _ _ h2 k2 _ _ (List.append_cancel_left h)
    obtain ⟨a3, h⟩ := path_cut num txt hn _ _ h3 k3 _ _ (List.append_cancel_left h)
    obtain ⟨a4, h⟩ := path_cut num txt hn _ _ h4 k4 _ _ (List.append_cancel_left h)
    exact ⟨a1, a2, a3, a4, String.toList_inj.1 (List.append_cancel_right (List.append_cancel_left h))⟩
  · intro p00 p10 p11 p01 h
    have h := congrArg String.toList h
    simp only [PrintedPatch.repr, String.toList_append, List.append_assoc] at h
    have h := List.append_cancel_left h
    simp at h

/-- C168 for Coons patches given by corners, in part: two of them with the same text look the same at the corners `p00` and `p10`, and have offsets
with the same text.  Missing: the corners `p11` and `p01` (`C168_corners_violated`). -/
theorem C168_corners_partial (num txt deg : ℝ → String) (hn : ∀ x, PlainText (num x)) (p00 p10 p11 p01 q00 q10 q11 q01 : V) (o o' : String)
    (h : (PrintedPatch.coonsCorners p00 p10 p11 p01 o).repr num txt deg = (PrintedPatch.coonsCorners q00 q10 q11 q01 o').repr num txt deg) :
    LooksLike num p00 q00 ∧ LooksLike num p10 q10 ∧ o = o' := by
  have h := congrArg String.toList h
  simp only [PrintedPatch.repr, String.toList_append, str_toList, List.append_assoc, coords_append, List.nil_append] at h
  have h := List.append_cancel_left (List.append_cancel_left (List.append_cancel_left h))
  obtain ⟨a1, h⟩ := coords_cut hn h
  obtain ⟨a2, h⟩ := coords_cut hn (List.append_cancel_left (List.append_cancel_left h))
  obtain ⟨-, h⟩ := coords_cut hn (List.append_cancel_left (List.append_cancel_left h))
  obtain ⟨-, h⟩ := coords_cut hn (List.append_cancel_left (List.append_cancel_left h))
  exact ⟨a1, a2, String.toList_inj.1 (List.append_cancel_right (List.append_cancel_left h))⟩

/-- C168 is violated by Coons patches given by corners: the text gives the coordinates of `p10` for `p11` and `p01` too, so that patches which share
the corners `p00` and `p10` have the same text, whatever the other two. -/
theorem C168_corners_violated (num txt deg : ℝ → String) (p00 p10 p11 p01 q11 q01 : V) (o : String) :
    (PrintedPatch.coonsCorners p00 p10 p11 p01 o).repr num txt deg = (PrintedPatch.coonsCorners p00 p10 q11 q01 o).repr num txt deg ∧
    ∃ a b, (PrintedPatch.coonsCorners p00 p10 p11 p01 o).repr num txt deg = a ++ "p11=" ++ Vec.str num p10 ++ ", p01=" ++ Vec.str num p10 ++ b := by
  refine ⟨by simp only [PrintedPatch.repr], "CoonsPatch(p00=" ++ Vec.str num p00 ++ ", p10=" ++ Vec.str num p10 ++ ", ", ", offset=" ++ o ++ ")", ?_⟩
  have e1 : ", p11=" = ", " ++ "p11=" := by decide
  have e2 : "CoonsPatch(p00=" = "CoonsPatch(" ++ "p00=" := by decide
  simp only [PrintedPatch.repr, e1, e2, String.append_assoc]

/-- C168 for the faces of spheres: the same text only for faces that look the same. -/
theorem C168_sphere (num txt deg : ℝ → String) (hn : ∀ x, PlainText (num x)) (ht : ∀ x, PlainText (txt x)) (r r' : ℝ) (c c' : V) (f f' : String)
    (h : (PrintedPatch.sphere r c f).repr num txt deg = (PrintedPatch.sphere r' c' f').repr num txt deg) :
    txt r = txt r' ∧ LooksLike num c c' ∧ f = f' := by
  have h := congrArg String.toList h
  have e : ", centre = ".toList = ',' :: " centre = ".toList := by decide
  simp only [PrintedPatch.repr, String.toList_append, str_toList, List.append_assoc, coords_append, List.nil_append, e, List.cons_append] at h
  have hc : ¬ (fun c : Char => c ≠ ',' ∧ c ≠ '(' ∧ c ≠ ')' ∧ c ≠ '[' ∧ c ≠ ']') ',' := by decide
  obtain ⟨a1, -, h⟩ := cut _ (ht r) (ht r') hc hc (List.append_cancel_left h)
  obtain ⟨a2, h⟩ := coords_cut hn (List.append_cancel_left (List.append_cancel_left h))
  exact ⟨String.toList_inj.1 a1, a2, String.toList_inj.1 (List.append_cancel_left h)⟩

/-- Four edges that meet the hypotheses of `C168_coons_edges`. -/
example (a b c d : V) : ∀ p ∈ [PrintedPath.line a b, .arcLength (.bezier [a, b, c]) 20, .polyline [.line d c, .elipse], .spline [a, d] false], Told p := by
  simp only [List.mem_cons, List.not_mem_nil, or_false, forall_eq_or_imp, forall_eq]
  exact ⟨.line _ _, .arcLength _ _ (.bezier _), .polyline _ (by simp) (by simpa using ⟨.line _ _, .elipse⟩), .spline _ _⟩

end HV
