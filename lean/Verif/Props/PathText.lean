import Verif.Model.PathText
import Verif.Lemmas.Name
import Mathlib.Algebra.Order.Ring.Int
import Mathlib.Tactic.Ring
import Mathlib.Tactic.Linarith

/-!
# C168: the texts of vectors, paths and patches
-/

namespace HV

namespace Spec

/-- Opening minus closing round brackets in a text. -/
def excess (s : String) : ℤ := (s.toList.count '(' : ℤ) - s.toList.count ')'

/-- A text without commas and brackets, like that of a number. -/
def PlainText (s : String) : Prop := ∀ c ∈ s.toList, c ≠ ',' ∧ c ≠ '(' ∧ c ≠ ')' ∧ c ≠ '[' ∧ c ≠ ']'

/-- The coordinates of the vectors look the same when printed. -/
def LooksLike (num : ℝ → String) (v w : V) : Prop := num v.x = num w.x ∧ num v.y = num w.y ∧ num v.z = num w.z

/-- The two paths are of the same class and look the same when printed: the same numbers of points with the same printed coordinates,
the same flags, and paths inside that look the same. -/
inductive SamePath (num : ℝ → String) : PrintedPath → PrintedPath → Prop
  | line {p0 p1 q0 q1 : V} : LooksLike num p0 q0 → LooksLike num p1 q1 → SamePath num (.line p0 p1) (.line q0 q1)
  | bezier {B C : List V} : List.Forall₂ (LooksLike num) B C → SamePath num (.bezier B) (.bezier C)
  | polyline {l m : List PrintedPath} : l.length = m.length → (∀ i (h : i < l.length) (h' : i < m.length), SamePath num l[i] m[i]) →
      SamePath num (.polyline l) (.polyline m)
  | spline {B C : List V} {c : Bool} : List.Forall₂ (LooksLike num) B C → SamePath num (.spline B c) (.spline C c)
  | arc {a b c a' b' c' : V} : LooksLike num a a' → LooksLike num b b' → LooksLike num c c' → SamePath num (.arc a b c) (.arc a' b' c')
  | arcLength {p q : PrintedPath} {n : ℕ} : SamePath num p q → SamePath num (.arcLength p n) (.arcLength q n)
  | elipse : SamePath num .elipse .elipse
  | offset : SamePath num .offset .offset
  | mean : SamePath num .mean .mean
  | trailingEdge : SamePath num .trailingEdge .trailingEdge
  | perimeter : SamePath num .perimeter .perimeter

/-- There is no sub-ranged or reversed path inside, and polylines have segments. -/
inductive Told : PrintedPath → Prop
  | line (p0 p1 : V) : Told (.line p0 p1)
  | bezier (B : List V) : Told (.bezier B)
  | polyline (l : List PrintedPath) : l ≠ [] → (∀ p ∈ l, Told p) → Told (.polyline l)
  | spline (B : List V) (c : Bool) : Told (.spline B c)
  | arc (a b c : V) : Told (.arc a b c)
  | arcLength (p : PrintedPath) (n : ℕ) : Told p → Told (.arcLength p n)
  | elipse : Told .elipse
  | offset : Told .offset
  | mean : Told .mean
  | trailingEdge : Told .trailingEdge
  | perimeter : Told .perimeter

end Spec

open Spec

/-! ## Cutting texts at commas and brackets -/

theorem cut {x x' b b' : List Char} {c c' : Char} (P : Char → Prop) (hx : ∀ d ∈ x, P d) (hx' : ∀ d ∈ x', P d) (hc : ¬ P c) (hc' : ¬ P c')
    (h : x ++ c :: b = x' ++ c' :: b') : x = x' ∧ c = c' ∧ b = b' := by
  induction x generalizing x' with
  | nil =>
    rcases x' with _ | ⟨d, x'⟩
    · simpa using h
    · simp only [List.nil_append, List.cons_append, List.cons.injEq] at h
      exact absurd (hx' d (by simp)) (h.1 ▸ hc)
  | cons d x ih =>
    rcases x' with _ | ⟨d', x'⟩
    · simp only [List.nil_append, List.cons_append, List.cons.injEq] at h
      exact absurd (hx d (by simp)) (h.1 ▸ hc')
    · simp only [List.cons_append, List.cons.injEq] at h
      obtain ⟨h1, h2, h3⟩ := ih (fun e he => hx e (by simp [he])) (fun e he => hx' e (by simp [he])) h.2
      exact ⟨by rw [h.1, h1], h2, h3⟩

/-- The characters of the coordinates of a vector, up to the closing bracket, and what follows. -/
def coords (num : ℝ → String) (v : V) (r : List Char) : List Char :=
  (num v.x).toList ++ ',' :: ' ' :: ((num v.y).toList ++ ',' :: ' ' :: ((num v.z).toList ++ ')' :: r))

theorem coords_cut {num : ℝ → String} (hn : ∀ x, PlainText (num x)) {v w : V} {r r' : List Char} (h : coords num v r = coords num w r') :
    LooksLike num v w ∧ r = r' := by
  unfold coords at h
  have hc : ¬ (fun c : Char => c ≠ ',' ∧ c ≠ '(' ∧ c ≠ ')' ∧ c ≠ '[' ∧ c ≠ ']') ',' := by decide
  have hp : ¬ (fun c : Char => c ≠ ',' ∧ c ≠ '(' ∧ c ≠ ')' ∧ c ≠ '[' ∧ c ≠ ']') ')' := by decide
  obtain ⟨h1, -, h⟩ := cut _ (hn v.x) (hn w.x) hc hc h
  obtain ⟨h2, -, h⟩ := cut _ (hn v.y) (hn w.y) hc hc (List.cons.inj h).2
  obtain ⟨h3, -, h⟩ := cut _ (hn v.z) (hn w.z) hp hp (List.cons.inj h).2
  exact ⟨⟨String.toList_inj.1 h1, String.toList_inj.1 h2, String.toList_inj.1 h3⟩, h⟩

theorem coords_append (num : ℝ → String) (v : V) (r s : List Char) : coords num v r ++ s = coords num v (r ++ s) := by
  simp [coords]

theorem str_toList (num : ℝ → String) (v : V) : (Vec.str num v).toList = "3-dimensional vector: (".toList ++ coords num v [] := by
  have e : Vec.str num v = "3-dimensional vector: (" ++ (num v.x ++ ", " ++ num v.y ++ ", " ++ num v.z ++ ")") := by
    have h1 : ", ".intercalate [num v.x, num v.y, num v.z] = num v.x ++ ", " ++ num v.y ++ ", " ++ num v.z := rfl
    have h2 : toString [num v.x, num v.y, num v.z].length ++ "-dimensional vector: (" = "3-dimensional vector: (" := by
      show toString 3 ++ "-dimensional vector: (" = _
      decide
    unfold Vec.str
    simp only [h1]
    rw [h2]
    simp only [String.append_assoc]
  rw [e]
  simp [coords]

theorem repr_toList (num : ℝ → String) (v : V) : (Vec.repr num v).toList = "Vector(".toList ++ coords num v [] := by
  have h1 : ", ".intercalate [num v.x, num v.y, num v.z] = num v.x ++ ", " ++ num v.y ++ ", " ++ num v.z := rfl
  unfold Vec.repr
  rw [h1]
  simp [coords]

/-- C168: two vectors have the same text if and only if their coordinates look the same when rounded and printed. -/
theorem C168_vector (num : ℝ → String) (hn : ∀ x, PlainText (num x)) (v w : V) :
    (Vec.str num v = Vec.str num w ↔ LooksLike num v w) ∧ (Vec.repr num v = Vec.repr num w ↔ LooksLike num v w) := by
  constructor
  · constructor
    · intro h
      have := congrArg String.toList h
      rw [str_toList, str_toList] at this
      exact (coords_cut hn (List.append_cancel_left this)).1
    · rintro ⟨h1, h2, h3⟩
      unfold Vec.str
      rw [h1, h2, h3]
  · constructor
    · intro h
      have := congrArg String.toList h
      rw [repr_toList, repr_toList] at this
      exact (coords_cut hn (List.append_cancel_left this)).1
    · rintro ⟨h1, h2, h3⟩
      unfold Vec.repr
      rw [h1, h2, h3]

/-- The characters before the coordinates. -/
def vec0 : List Char := ['V', 'e', 'c', 't', 'o', 'r', '(']

theorem vec0_eq : "Vector(".toList = vec0 := by decide

/-- The points of a list after the first, and what follows. -/
def coordsTail (num : ℝ → String) : List V → List Char → List Char
  | [], r => ']' :: r
  | v :: l, r => ',' :: ' ' :: (vec0 ++ coords num v (coordsTail num l r))

theorem coordsTail_cut {num : ℝ → String} (hn : ∀ x, PlainText (num x)) {l m : List V} {r r' : List Char}
    (h : coordsTail num l r = coordsTail num m r') : List.Forall₂ (LooksLike num) l m ∧ r = r' := by
  induction l generalizing m with
  | nil =>
    rcases m with _ | ⟨w, m⟩
    · exact ⟨.nil, by simpa [coordsTail] using h⟩
    · simp [coordsTail] at h
  | cons v l ih =>
    rcases m with _ | ⟨w, m⟩
    · simp [coordsTail] at h
    · simp only [coordsTail, List.cons.injEq, true_and] at h
      obtain ⟨h1, h2⟩ := coords_cut hn (List.append_cancel_left h)
      obtain ⟨h3, h4⟩ := ih h2
      exact ⟨.cons h1 h3, h4⟩

/-- The points of a list, and what follows. -/
def coordsList (num : ℝ → String) : List V → List Char → List Char
  | [], r => ']' :: r
  | v :: l, r => vec0 ++ coords num v (coordsTail num l r)

theorem coordsList_cut {num : ℝ → String} (hn : ∀ x, PlainText (num x)) {l m : List V} {r r' : List Char}
    (h : coordsList num l r = coordsList num m r') : List.Forall₂ (LooksLike num) l m ∧ r = r' := by
  rcases l with _ | ⟨v, l⟩ <;> rcases m with _ | ⟨w, m⟩
  · exact ⟨.nil, by simpa [coordsList] using h⟩
  · simp [coordsList, vec0] at h
  · simp [coordsList, vec0] at h
  · simp only [coordsList] at h
    obtain ⟨h1, h2⟩ := coords_cut hn (List.append_cancel_left h)
    obtain ⟨h3, h4⟩ := coordsTail_cut hn h2
    exact ⟨.cons h1 h3, h4⟩

theorem reprList_toList (num : ℝ → String) (l : List V) (r : List Char) :
    (Vec.reprList num l).toList ++ r = '[' :: coordsList num l r := by
  have tail : ∀ (l : List V) (v : V), (", ".intercalate ((v :: l).map (Vec.repr num))).toList ++ ']' :: r =
      vec0 ++ coords num v (coordsTail num l r) := by
    intro l
    induction l with
    | nil =>
      intro v
      rw [show ", ".intercalate ([v].map (Vec.repr num)) = Vec.repr num v from rfl, repr_toList, vec0_eq, List.append_assoc, coords_append]
      simp only [coordsTail, List.nil_append]
    | cons w l ih =>
      intro v
      rw [List.map_cons, List.map_cons, String.intercalate_cons_cons, ← List.map_cons, String.toList_append, String.toList_append, repr_toList,
        vec0_eq, List.append_assoc, ih w, List.append_assoc, List.append_assoc, coords_append]
      simp [coordsTail]
  unfold Vec.reprList
  rcases l with _ | ⟨v, l⟩
  · simp [coordsList]
  · rw [String.toList_append, String.toList_append, List.append_assoc, List.append_assoc]
    have e : "]".toList ++ r = ']' :: r := by simp
    rw [e, tail]
    simp [coordsList]

theorem nat_plain (n : ℕ) : PlainText (toString n) := by
  intro c hc
  have : c.isDigit = true := by
    have e : (toString n).toList = Nat.toDigits 10 n := by simp [toString, Nat.repr]
    rw [e] at hc
    exact Nat.isDigit_of_mem_toDigits (by norm_num) (by norm_num) hc
  refine ⟨?_, ?_, ?_, ?_, ?_⟩ <;> rintro rfl <;> exact absurd this (by decide)

/-! ## Paths with the same text look the same -/

/-- The classes of paths. -/
def pathKind : PrintedPath → ℕ
  | .line _ _ => 0 | .bezier _ => 1 | .polyline _ => 2 | .spline _ _ => 3 | .arc _ _ _ => 4 | .arcLength _ _ => 5 | .subRanged _ _ _ => 6
  | .reversed _ => 7 | .elipse => 8 | .offset => 9 | .mean => 10 | .trailingEdge => 11 | .perimeter => 12

theorem kind_cut (num txt : ℝ → String) (p q : PrintedPath) (hp : Told p) (hq : Told q) (r r' : List Char)
    (h : (p.str num txt).toList ++ r = (q.str num txt).toList ++ r') : pathKind p = pathKind q := by
  cases hp <;> cases hq <;> first | rfl | (exfalso; simp [PrintedPath.str, PrintedPath.repr] at h)

mutual

theorem path_cut (num txt : ℝ → String) (hn : ∀ x, PlainText (num x)) (p q : PrintedPath) (hp : Told p) (hq : Told q) (r r' : List Char)
    (h : (p.str num txt).toList ++ r = (q.str num txt).toList ++ r') : SamePath num p q ∧ r = r' := by
  have hk := kind_cut num txt p q hp hq r r' h
  cases p with
  | line p0 p1 =>
    cases q with
    | line q0 q1 =>
      simp only [PrintedPath.str, PrintedPath.repr, String.toList_append, str_toList, List.append_assoc, coords_append, List.nil_append] at h
      obtain ⟨h1, h⟩ := coords_cut hn (List.append_cancel_left (List.append_cancel_left h))
      obtain ⟨h2, h⟩ := coords_cut hn (List.append_cancel_left (List.append_cancel_left h))
      exact ⟨.line h1 h2, List.append_cancel_left h⟩
    | _ => simp [pathKind] at hk
  | bezier B =>
    cases q with
    | bezier C =>
      simp only [PrintedPath.str, PrintedPath.repr, String.toList_append, List.append_assoc] at h
      rw [reprList_toList, reprList_toList] at h
      obtain ⟨h1, h⟩ := coordsList_cut hn (List.cons.inj (List.append_cancel_left h)).2
      exact ⟨.bezier h1, List.append_cancel_left h⟩
    | _ => simp [pathKind] at hk
  | polyline l =>
    cases q with
    | polyline m =>
      have hl : l ≠ [] := by cases hp; assumption
      have hl' : ∀ p ∈ l, Told p := by cases hp; assumption
      have hm : m ≠ [] := by cases hq; assumption
      have hm' : ∀ p ∈ m, Told p := by cases hq; assumption
      simp only [PrintedPath.str, PrintedPath.repr, String.toList_append, List.append_assoc] at h
      obtain ⟨h1, h2, h3⟩ := paths_cut num txt hn l m hl hm hl' hm' r r' (List.append_cancel_left h)
      exact ⟨.polyline h1 h2, h3⟩
    | _ => simp [pathKind] at hk
  | spline B c =>
    cases q with
    | spline C d =>
      simp only [PrintedPath.str, PrintedPath.repr, String.toList_append, List.append_assoc] at h
      rw [reprList_toList, reprList_toList] at h
      obtain ⟨h1, h⟩ := coordsList_cut hn (List.cons.inj (List.append_cancel_left h)).2
      have h := List.append_cancel_left h
      rcases c with _ | _ <;> rcases d with _ | _
      · exact ⟨.spline h1, List.append_cancel_left (List.append_cancel_left h)⟩
      · simp at h
      · simp at h
      · exact ⟨.spline h1, List.append_cancel_left (List.append_cancel_left h)⟩
    | _ => simp [pathKind] at hk
  | arc a b c =>
    cases q with
    | arc a' b' c' =>
      simp only [PrintedPath.str, PrintedPath.repr, String.toList_append, str_toList, List.append_assoc, coords_append, List.nil_append] at h
      obtain ⟨h1, h⟩ := coords_cut hn (List.append_cancel_left (List.append_cancel_left h))
      obtain ⟨h2, h⟩ := coords_cut hn (List.append_cancel_left (List.append_cancel_left h))
      obtain ⟨h3, h⟩ := coords_cut hn (List.append_cancel_left (List.append_cancel_left h))
      exact ⟨.arc h1 h2 h3, List.append_cancel_left h⟩
    | _ => simp [pathKind] at hk
  | arcLength p n =>
    cases q with
    | arcLength q m =>
      have hp' : Told p := by cases hp; assumption
      have hq' : Told q := by cases hq; assumption
      simp only [PrintedPath.str, PrintedPath.repr, String.toList_append, List.append_assoc] at h
      obtain ⟨h1, h⟩ := path_cut num txt hn p q hp' hq' _ _ (List.append_cancel_left h)
      have e : ∀ r : List Char, ")".toList ++ r = ')' :: r := fun r => by simp
      rw [e, e] at h
      obtain ⟨h2, -, h3⟩ := cut _ (nat_plain n) (nat_plain m) (c := ')') (c' := ')') (by decide) (by decide) (List.append_cancel_left h)
      obtain rfl : n = m := toString_nat_inj (String.toList_inj.1 h2)
      exact ⟨.arcLength h1, h3⟩
    | _ => simp [pathKind] at hk
  | subRanged => cases hp
  | reversed => cases hp
  | elipse =>
    cases q with
    | elipse => exact ⟨.elipse, List.append_cancel_left h⟩
    | _ => simp [pathKind] at hk
  | offset =>
    cases q with
    | offset => exact ⟨.offset, List.append_cancel_left h⟩
    | _ => simp [pathKind] at hk
  | mean =>
    cases q with
    | mean => exact ⟨.mean, List.append_cancel_left h⟩
    | _ => simp [pathKind] at hk
  | trailingEdge =>
    cases q with
    | trailingEdge => exact ⟨.trailingEdge, List.append_cancel_left h⟩
    | _ => simp [pathKind] at hk
  | perimeter =>
    cases q with
    | perimeter => exact ⟨.perimeter, List.append_cancel_left h⟩
    | _ => simp [pathKind] at hk
termination_by sizeOf p

theorem paths_cut (num txt : ℝ → String) (hn : ∀ x, PlainText (num x)) (l m : List PrintedPath) (hl : l ≠ []) (hm : m ≠ []) (hl' : ∀ p ∈ l, Told p)
    (hm' : ∀ p ∈ m, Told p) (r r' : List Char) (h : (PrintedPath.strs num txt l).toList ++ r = (PrintedPath.strs num txt m).toList ++ r') :
    l.length = m.length ∧ (∀ i (h : i < l.length) (h' : i < m.length), SamePath num l[i] m[i]) ∧ r = r' := by
  match l, m, hl, hm with
  | [p], [q], _, _ =>
    simp only [PrintedPath.strs, String.toList_append, List.append_assoc] at h
    obtain ⟨h1, h⟩ := path_cut num txt hn p q (hl' p (by simp)) (hm' q (by simp)) _ _ h
    refine ⟨rfl, fun i hi _ => ?_, List.append_cancel_left h⟩
    obtain rfl : i = 0 := by simpa using hi
    exact h1
  | [p], q :: q' :: m, _, _ =>
    simp only [PrintedPath.strs, String.toList_append, List.append_assoc] at h
    obtain ⟨h1, h⟩ := path_cut num txt hn p q (hl' p (by simp)) (hm' q (by simp)) _ _ h
    simp at h
  | p :: p' :: l, [q], _, _ =>
    simp only [PrintedPath.strs, String.toList_append, List.append_assoc] at h
    obtain ⟨h1, h⟩ := path_cut num txt hn p q (hl' p (by simp)) (hm' q (by simp)) _ _ h
    simp at h
  | p :: p' :: l, q :: q' :: m, _, _ =>
    simp only [PrintedPath.strs, String.toList_append, List.append_assoc] at h
    obtain ⟨h1, h⟩ := path_cut num txt hn p q (hl' p (by simp)) (hm' q (by simp)) _ _ h
    obtain ⟨h2, h3, h4⟩ := paths_cut num txt hn (p' :: l) (q' :: m) (by simp) (by simp) (fun x hx => hl' x (List.mem_cons_of_mem _ hx))
      (fun x hx => hm' x (List.mem_cons_of_mem _ hx)) _ _ (List.append_cancel_left h)
    refine ⟨by simpa using h2, fun i hi hi' => ?_, h4⟩
    rcases i with _ | i
    · exact h1
    · exact h3 i (by simpa using hi) (by simpa using hi')
termination_by sizeOf l

end

/-- C168 for paths, in part: two paths with the same text are of the same class, and everything inside them looks the same when printed.
Missing: paths with sub-ranged or reversed paths inside (`C168_subrange_violated`). -/
theorem C168_paths_partial (num txt : ℝ → String) (hn : ∀ x, PlainText (num x)) (p q : PrintedPath) (hp : Told p) (hq : Told q)
    (h : p.repr num txt = q.repr num txt) : SamePath num p q := by
  have e : ∀ p : PrintedPath, Told p → p.str num txt = p.repr num txt := by
    intro p hp
    cases hp <;> simp only [PrintedPath.str]
  refine (path_cut num txt hn p q hp hq [] [] ?_).1
  rw [e p hp, e q hq, h]

/-- C168 is violated by sub-ranged and reversed paths: printed as a part of another path, they all look the same, whatever they are made of, and
printed themselves, they claim to be of another class. -/
theorem C168_subrange_violated (num txt : ℝ → String) (p q : PrintedPath) (t0 t1 s0 s1 : ℝ) :
    (PrintedPath.polyline [.subRanged p t0 t1]).repr num txt = (PrintedPath.polyline [.subRanged q s0 s1]).repr num txt ∧
    (PrintedPath.polyline [.subRanged p t0 t1]).repr num txt = (PrintedPath.polyline [.reversed q]).repr num txt ∧
    (∀ n, (PrintedPath.arcLength (.subRanged p t0 t1) n).repr num txt = (PrintedPath.arcLength (.reversed q) n).repr num txt) ∧
    ∃ s, (PrintedPath.subRanged p t0 t1).repr num txt = "ArcLengthParameterizedPath(" ++ s := by
  refine ⟨by simp only [PrintedPath.repr, PrintedPath.strs, PrintedPath.str], by simp only [PrintedPath.repr, PrintedPath.strs, PrintedPath.str],
    fun n => by simp only [PrintedPath.repr, PrintedPath.str], ?_⟩
  refine ⟨"underlying_path=" ++ p.str num txt ++ ", t0=" ++ txt t0 ++ ", t1=" ++ txt t1 ++ ")", ?_⟩
  have e : "ArcLengthParameterizedPath(underlying_path=" = "ArcLengthParameterizedPath(" ++ "underlying_path=" := by decide
  simp only [PrintedPath.repr, e, String.append_assoc]

/-! ## Brackets -/

theorem excess_append (a b : String) : excess (a ++ b) = excess a + excess b := by
  unfold excess
  rw [String.toList_append, List.count_append, List.count_append]
  push_cast
  ring

theorem Spec.PlainText.excess {s : String} (h : PlainText s) : Spec.excess s = 0 := by
  unfold Spec.excess
  rw [List.count_eq_zero.2 fun hc => (h _ hc).2.1 rfl, List.count_eq_zero.2 fun hc => (h _ hc).2.2.1 rfl]
  simp

theorem excess_str {num : ℝ → String} (hn : ∀ x, PlainText (num x)) (v : V) : excess (Vec.str num v) = 0 := by
  have e : Vec.str num v = "3-dimensional vector: (" ++ (num v.x ++ ", " ++ num v.y ++ ", " ++ num v.z ++ ")") := by
    apply String.toList_inj.1
    rw [str_toList]
    simp [coords]
  rw [e]
  simp only [excess_append, (hn _).excess]
  decide

theorem excess_repr {num : ℝ → String} (hn : ∀ x, PlainText (num x)) (v : V) : excess (Vec.repr num v) = 0 := by
  have h1 : ", ".intercalate [num v.x, num v.y, num v.z] = num v.x ++ ", " ++ num v.y ++ ", " ++ num v.z := rfl
  unfold Vec.repr
  rw [h1]
  simp only [excess_append, (hn _).excess]
  decide

theorem excess_list {num : ℝ → String} (hn : ∀ x, PlainText (num x)) (l : List V) : excess (Vec.reprList num l) = 0 := by
  have h : excess (", ".intercalate (l.map (Vec.repr num))) = 0 := by
    induction l with
    | nil => rw [List.map_nil]; decide
    | cons v l ih =>
      rcases l with _ | ⟨w, l⟩
      · exact excess_repr hn v
      · rw [List.map_cons, List.map_cons, String.intercalate_cons_cons, ← List.map_cons, excess_append, excess_append, ih, excess_repr hn]
        decide
  unfold Vec.reprList
  rw [excess_append, excess_append, h]
  decide

namespace Spec

/-- No polyline is printed as a part of the path (splines are printed by their points). -/
inductive NoPolyline : PrintedPath → Prop
  | line (p0 p1 : V) : NoPolyline (.line p0 p1)
  | bezier (B : List V) : NoPolyline (.bezier B)
  | spline (B : List V) (c : Bool) : NoPolyline (.spline B c)
  | arc (a b c : V) : NoPolyline (.arc a b c)
  | arcLength (p : PrintedPath) (n : ℕ) : NoPolyline p → NoPolyline (.arcLength p n)
  | subRanged (p : PrintedPath) (t0 t1 : ℝ) : NoPolyline p → NoPolyline (.subRanged p t0 t1)
  | reversed (p : PrintedPath) : NoPolyline p → NoPolyline (.reversed p)
  | elipse : NoPolyline .elipse
  | offset : NoPolyline .offset
  | mean : NoPolyline .mean
  | trailingEdge : NoPolyline .trailingEdge
  | perimeter : NoPolyline .perimeter

end Spec

theorem balanced_both (num txt : ℝ → String) (hn : ∀ x, PlainText (num x)) (ht : ∀ x, PlainText (txt x)) (p : PrintedPath) (hp : NoPolyline p) :
    excess (p.repr num txt) = 0 ∧ excess (p.str num txt) = 0 := by
  induction hp with
  | line p0 p1 =>
    simp only [PrintedPath.str, PrintedPath.repr, excess_append, excess_str hn]
    decide
  | bezier B =>
    simp only [PrintedPath.str, PrintedPath.repr, excess_append, excess_list hn]
    decide
  | spline B c =>
    simp only [PrintedPath.str, PrintedPath.repr, excess_append, excess_list hn]
    rcases c with _ | _ <;> decide
  | arc a b c =>
    simp only [PrintedPath.str, PrintedPath.repr, excess_append, excess_str hn]
    decide
  | arcLength p n _ ih =>
    simp only [PrintedPath.str, PrintedPath.repr, excess_append, ih.2, (nat_plain n).excess]
    decide
  | subRanged p t0 t1 _ ih =>
    simp only [PrintedPath.str, PrintedPath.repr, excess_append, ih.2, (ht _).excess]
    decide
  | reversed p _ ih =>
    simp only [PrintedPath.str, PrintedPath.repr, excess_append, ih.2, (ht _).excess]
    decide
  | elipse => simp only [PrintedPath.str, PrintedPath.repr]; decide
  | offset => simp only [PrintedPath.str, PrintedPath.repr]; decide
  | mean => simp only [PrintedPath.str, PrintedPath.repr]; decide
  | trailingEdge => simp only [PrintedPath.str, PrintedPath.repr]; decide
  | perimeter => simp only [PrintedPath.str, PrintedPath.repr]; decide

/-- C168, in part: in the text of a path every bracket that is opened is closed.  Missing: polylines (`C168_polyline_violated`). -/
theorem C168_brackets_partial (num txt : ℝ → String) (hn : ∀ x, PlainText (num x)) (ht : ∀ x, PlainText (txt x)) (p : PrintedPath) (hp : NoPolyline p) :
    excess (p.repr num txt) = 0 := (balanced_both num txt hn ht p hp).1

/-- C168 is violated by every polyline: the bracket after the name of the class is not closed. -/
theorem C168_polyline_violated (num txt : ℝ → String) (hn : ∀ x, PlainText (num x)) (ht : ∀ x, PlainText (txt x)) (l : List PrintedPath)
    (hl : ∀ p ∈ l, NoPolyline p) : excess ((PrintedPath.polyline l).repr num txt) = 1 := by
  have key : ∀ l : List PrintedPath, (∀ p ∈ l, NoPolyline p) → excess (PrintedPath.strs num txt l) = 0 := by
    intro l
    induction l with
    | nil => intro _; simp only [PrintedPath.strs]; decide
    | cons p l ih =>
      intro hl
      rcases l with _ | ⟨q, l⟩
      · simp only [PrintedPath.strs, excess_append, (balanced_both num txt hn ht p (hl p (by simp))).2]
        decide
      · simp only [PrintedPath.strs, excess_append, (balanced_both num txt hn ht p (hl p (by simp))).2,
          ih fun x hx => hl x (List.mem_cons_of_mem _ hx)]
        decide
  simp only [PrintedPath.repr, excess_append, key l hl]
  decide

/-! ## Patches -/

namespace Spec

/-- What is done to a patch. -/
inductive PatchOp
  | offset
  | curve
  | rotate (angle : ℝ) (axis : String) (point : V)
  | mirror (axis : String)

/-- The patch after the operation. -/
def PatchOp.apply : PatchOp → PrintedPatch → PrintedPatch
  | offset, s => .offset s
  | curve, s => .curved s
  | rotate angle axis point, s => .rotated s angle axis point
  | mirror axis, s => .mirrored s axis

/-- How the operation is described. -/
def PatchOp.text (deg : ℝ → String) : PatchOp → String
  | offset => " + offset function"
  | curve => " with added curvature"
  | rotate angle _ _ => " (rotated by " ++ deg angle ++ " degrees)"
  | mirror axis => " mirrored along " ++ axis ++ "-axis"

end Spec

/-- C168 for patches, in part: whatever has been done to a patch, its text is that of the original patch followed by the description of all
operations, first to last.  Missing: the description of a rotation does not name the axis (`C168_rotated_violated`). -/
theorem C168_patch_partial (num txt deg : ℝ → String) (s : PrintedPatch) (ops : List PatchOp) :
    ((ops.foldl (fun s o => o.apply s) s).repr num txt deg) = s.repr num txt deg ++ String.join (ops.map (PatchOp.text deg)) := by
  have key : ∀ (l : List String) (a : String), l.foldl (fun r s => r ++ s) a = a ++ l.foldl (fun r s => r ++ s) "" := by
    intro l
    induction l with
    | nil => intro a; simp
    | cons b l ih =>
      intro a
      rw [List.foldl_cons, ih, List.foldl_cons, ih ("" ++ b), String.append_assoc, String.empty_append]
  induction ops generalizing s with
  | nil => simp
  | cons o l ih =>
    rw [List.foldl_cons, ih, List.map_cons, String.join_cons, ← String.append_assoc]
    refine congrArg (· ++ String.join (l.map (PatchOp.text deg))) ?_
    cases o <;> simp only [PatchOp.apply, PatchOp.text, PrintedPatch.repr, String.append_assoc]

/-- C168 is violated by rotated patches: the texts of a patch rotated about different axes and points are the same. -/
theorem C168_rotated_violated (num txt deg : ℝ → String) (s : PrintedPatch) (angle : ℝ) (axis axis' : String) (point point' : V) :
    (PrintedPatch.rotated s angle axis point).repr num txt deg = (PrintedPatch.rotated s angle axis' point').repr num txt deg := by
  simp only [PrintedPatch.repr]

/-- A text for numbers: the hypotheses on `num` and `txt` can be met, by a function that tells numbers apart. -/
example : ∃ num : ℝ → String, (∀ x, PlainText (num x)) ∧ num 0 ≠ num 1 := by
  classical
  refine ⟨fun x => if x = 0 then "0.0" else "1.0", fun x => ?_, by simp⟩
  unfold PlainText
  beta_reduce
  split <;> decide

/-- A polyline of a line and a spline meets the hypotheses of `C168_paths_partial` and `C168_polyline_violated`. -/
example (p0 p1 : V) (B : List V) : Told (.polyline [.line p0 p1, .arcLength (.spline B true) 20]) ∧
    ∀ p ∈ [PrintedPath.line p0 p1, .arcLength (.spline B true) 20], NoPolyline p :=
  ⟨.polyline _ (by simp) (by rintro p hp; rcases List.mem_cons.1 hp with rfl | hp; · exact .line _ _
                             · rw [List.mem_singleton.1 hp]; exact .arcLength _ _ (.spline _ _)),
    by rintro p hp; rcases List.mem_cons.1 hp with rfl | hp; · exact .line _ _
       · rw [List.mem_singleton.1 hp]; exact .arcLength _ _ (.spline _ _)⟩

end HV
