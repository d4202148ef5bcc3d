import Verif.Lemmas.Res
import Verif.Lemmas.Vec
import Verif.Model.Wing
import Verif.Model.Bisect

/-!
# Paths and surfaces under a change of the unit of length

`Follows R a b`: if `a` succeeds then `b` succeeds with a related result.
-/

namespace HV

namespace Spec

/-- If `a` succeeds then so does `b`, and the results are related by `R`. -/
def Follows {α β : Type} (R : α → β → Prop) (a : Res α) (b : Res β) : Prop := ∀ x, a = .ok x → ∃ y, b = .ok y ∧ R x y

/-- A point measured in another unit. -/
def PointScaled (k : ℝ) (p q : V) : Prop := q = p * k

/-- A length measured in another unit. -/
def LengthScaled (k : ℝ) (a b : ℝ) : Prop := b = a * k

/-- A path measured in another unit: where the first can be evaluated, so can the second. -/
structure PathScaled (k : ℝ) (p q : PathObj) : Prop where
  call : ∀ t, Follows (PointScaled k) (p.call t) (q.call t)
  length : Follows (LengthScaled k) p.length q.length

/-- A surface measured in another unit. -/
def SurfScaled (k : ℝ) (S T : Surf) : Prop := ∀ r s, Follows (PointScaled k) (S r s) (T r s)

/-- A function of the position that returns a displacement, measured in another unit. -/
def OffFnScaled (k : ℝ) (f g : OffFn) : Prop := ∀ x y z, Follows (PointScaled k) (f x y z) (g (x * k) (y * k) (z * k))

/-- A function of a dimensionless parameter that returns a length, measured in another unit. -/
def WidthScaled (k : ℝ) (f g : ℝ → Res ℝ) : Prop := ∀ t, Follows (LengthScaled k) (f t) (g t)

/-- A root finder that does not depend on the unit of the function values. -/
def FindScaled (k : ℝ) (find : (ℝ → Res ℝ) → Res ℝ) : Prop := ∀ f g, WidthScaled k f g → Follows Eq (find f) (find g)

end Spec

open Spec

section
variable {α β γ δ : Type} {R : α → β → Prop} {S : γ → δ → Prop}

theorem follows_bind {a : Res α} {b : Res β} {f : α → Res γ} {g : β → Res δ} (h : Follows R a b)
    (hf : ∀ x y, R x y → Follows S (f x) (g y)) : Follows S (a >>= f) (b >>= g) := by
  intro z hz
  obtain ⟨x, hx, hz⟩ := bind_ok.1 hz
  obtain ⟨y, hy, hr⟩ := h x hx
  obtain ⟨w, hw, hs⟩ := hf x y hr z hz
  exact ⟨w, by rw [hy, ok_bind, hw], hs⟩

theorem follows_and {a : Res α} {b : Res β} (h : Follows R a b) : Follows (fun x y => a = .ok x ∧ R x y) a b := by
  intro x hx
  obtain ⟨y, e, hy⟩ := h x hx
  exact ⟨y, e, hx, hy⟩

theorem follows_ok {x : α} {y : β} (h : R x y) : Follows R (.ok x) (.ok y) := by
  intro z hz
  cases hz
  exact ⟨y, rfl, h⟩

theorem follows_pure {x : α} {y : β} (h : R x y) : Follows R (pure x) (pure y) := follows_ok h

theorem follows_error {e : PyErr} {b : Res β} : Follows R (.error e) b := by
  intro z hz
  cases hz

theorem follows_throw {e : PyErr} {b : Res β} : Follows R (throw e) b := follows_error

theorem follows_refl (a : Res α) : Follows Eq a a := fun x hx => ⟨x, hx, rfl⟩

theorem follows_eq {a : Res α} {b : Res β} (h : Follows R a b) {x : α} {y : β} (hx : a = .ok x) (hy : b = .ok y) : R x y := by
  obtain ⟨z, hz, hr⟩ := h x hx
  rw [hy] at hz
  cases hz
  exact hr

theorem follows_mapM {ι : Type} {f : ι → Res α} {g : ι → Res β} (l : List ι) (h : ∀ i ∈ l, Follows R (f i) (g i)) :
    Follows (List.Forall₂ R) (l.mapM f) (l.mapM g) := by
  induction l with
  | nil =>
    rw [List.mapM_nil, List.mapM_nil]
    exact follows_pure .nil
  | cons i l ih =>
    rw [List.mapM_cons, List.mapM_cons]
    refine follows_bind (h i (by simp)) fun x y hxy => follows_bind (ih fun j hj => h j (by simp [hj])) fun xs ys hs => ?_
    exact follows_pure (.cons hxy hs)

theorem follows_mapM₂ {ι κ : Type} {Q : ι → κ → Prop} {f : ι → Res α} {g : κ → Res β} {l : List ι} {l' : List κ}
    (hl : List.Forall₂ Q l l') (h : ∀ i j, Q i j → Follows R (f i) (g j)) :
    Follows (List.Forall₂ R) (l.mapM f) (l'.mapM g) := by
  induction hl with
  | nil =>
    rw [List.mapM_nil, List.mapM_nil]
    exact follows_pure .nil
  | cons hij _ ih =>
    rw [List.mapM_cons, List.mapM_cons]
    refine follows_bind (h _ _ hij) fun x y hxy => follows_bind ih fun xs ys hs => ?_
    exact follows_pure (.cons hxy hs)

theorem follows_getIdx {l : List α} {l' : List β} (h : List.Forall₂ R l l') (i : ℕ) :
    Follows R (SweptPatch.getIdx l i) (SweptPatch.getIdx l' i) := by
  induction h generalizing i with
  | nil => intro x hx; simp [SweptPatch.getIdx] at hx
  | cons h _ ih =>
    cases i with
    | zero => exact follows_ok h
    | succ i => exact ih i
end

section
variable {k : ℝ}

theorem scaled_zero : PointScaled k ⟨0, 0, 0⟩ ⟨0, 0, 0⟩ := by
  show _ = _
  ext <;> simp

theorem scaled_mk {x y z x' y' z' : ℝ} (hx : x' = x * k) (hy : y' = y * k) (hz : z' = z * k) :
    PointScaled k ⟨x, y, z⟩ ⟨x', y', z'⟩ := by
  subst hx hy hz
  rfl

theorem scaled_add {p q p' q' : V} (h : PointScaled k p p') (g : PointScaled k q q') : PointScaled k (p + q) (p' + q') := by
  rw [PointScaled] at *
  subst h g
  ext <;> simp <;> ring

theorem scaled_sub {p q p' q' : V} (h : PointScaled k p p') (g : PointScaled k q q') : PointScaled k (p - q) (p' - q') := by
  rw [PointScaled] at *
  subst h g
  ext <;> simp <;> ring

theorem scaled_mul {p p' : V} (h : PointScaled k p p') (a : ℝ) : PointScaled k (p * a) (p' * a) := by
  rw [PointScaled] at *
  subst h
  ext <;> simp <;> ring

theorem scaled_abs (hk : 0 < k) {p p' : V} (h : PointScaled k p p') : p'.abs = p.abs * k := by
  rw [PointScaled] at h
  rw [h, Vec.abs_mul, abs_of_pos hk, mul_comm]

theorem follows_pdiv (hk : 0 < k) {a b a' b' : ℝ} (ha : a' = a * k) (hb : b' = b * k) : Follows Eq (pdiv a b) (pdiv a' b') := by
  intro x hx
  unfold pdiv at hx ⊢
  split at hx
  · cases hx
  · rename_i h0
    cases hx
    refine ⟨a' / b', if_neg ?_, ?_⟩
    · rw [hb]; exact mul_ne_zero h0 hk.ne'
    · rw [ha, hb, mul_div_mul_right _ _ hk.ne']

theorem follows_pdiv_length (hk : 0 < k) {a b a' b' : ℝ} (ha : a' = a * k * k) (hb : b' = b * k) :
    Follows (LengthScaled k) (pdiv a b) (pdiv a' b') := by
  intro x hx
  unfold pdiv at hx ⊢
  split at hx
  · cases hx
  · rename_i h0
    cases hx
    refine ⟨a' / b', if_neg ?_, ?_⟩
    · rw [hb]; exact mul_ne_zero h0 hk.ne'
    · rw [LengthScaled, ha, hb, mul_div_mul_right _ _ hk.ne']; ring

/-! ## Paths -/

theorem path_length_scaled (hk : 0 < k) {f g : ℝ → Res V} (h : ∀ t, Follows (PointScaled k) (f t) (g t)) (n : ℕ) :
    Follows (LengthScaled k) (Path.length f n) (Path.length g n) := by
  unfold Path.length
  refine follows_bind (h 0) fun p p' hp => follows_bind (follows_refl _) fun dt dt' hdt => ?_
  subst hdt
  have : ∀ (l : List ℕ) (st st' : ℝ × V), (st'.1 = st.1 * k ∧ PointScaled k st.2 st'.2) →
      Follows (fun st st' : ℝ × V => st'.1 = st.1 * k ∧ PointScaled k st.2 st'.2) (l.foldlM (Path.lengthStep f dt) st)
        (l.foldlM (Path.lengthStep g dt) st') := by
    intro l
    induction l with
    | nil => intro st st' hs; exact follows_pure hs
    | cons i l ih =>
      intro st st' hs
      simp only [List.foldlM_cons]
      refine follows_bind (R := fun st st' : ℝ × V => st'.1 = st.1 * k ∧ PointScaled k st.2 st'.2) ?_ fun a b hab => ih a b hab
      unfold Path.lengthStep
      refine follows_bind (h _) fun q q' hq => follows_pure ⟨?_, hq⟩
      show st'.1 + (q' - st'.2).abs = (st.1 + (q - st.2).abs) * k
      rw [hs.1, scaled_abs hk (scaled_sub hq hs.2)]
      ring
  refine follows_bind (this _ _ _ ⟨by simp, hp⟩) fun st st' hs => follows_pure hs.1

/-- A path whose length is that of `Path.length`. -/
theorem sampled_scaled (hk : 0 < k) {f g : ℝ → Res V} (h : ∀ t, Follows (PointScaled k) (f t) (g t)) :
    PathScaled k ⟨f, Path.length f⟩ ⟨g, Path.length g⟩ := ⟨h, path_length_scaled hk h 20⟩

theorem line_scaled (hk : 0 < k) {p q p' q' : V} (h : PointScaled k p p') (g : PointScaled k q q') :
    PathScaled k (Line p q) (Line p' q') :=
  ⟨fun t => follows_ok (scaled_add (scaled_mul h _) (scaled_mul g _)), follows_ok (scaled_abs hk (scaled_sub g h))⟩

theorem bezier_inner_scaled (t : ℝ) (m : ℕ) {Q Q' : ℕ → V} (h : ∀ i, PointScaled k (Q i) (Q' i)) :
    ∀ i, PointScaled k (Bezier.inner t m Q i) (Bezier.inner t m Q' i) := by
  unfold Bezier.inner
  generalize List.range m = l
  induction l generalizing Q Q' with
  | nil => exact h
  | cons j l ih =>
    simp only [List.foldl_cons]
    apply ih
    intro i
    unfold Function.update
    split
    · simp only [eq_rec_constant]
      exact scaled_add (scaled_mul (h _) _) (scaled_mul (h _) _)
    · exact h i

theorem bezier_work_scaled (t : ℝ) (n : ℕ) {Q Q' : ℕ → V} (h : ∀ i, PointScaled k (Q i) (Q' i)) :
    ∀ i, PointScaled k (Bezier.work t n Q i) (Bezier.work t n Q' i) := by
  unfold Bezier.work
  generalize List.range n = l
  induction l generalizing Q Q' with
  | nil => exact h
  | cons j l ih =>
    simp only [List.foldl_cons]
    exact ih (bezier_inner_scaled t _ h)

theorem bezier_scaled (hk : 0 < k) (B : List V) : PathScaled k (Bezier B) (Bezier (B.map (· * k))) := by
  refine sampled_scaled hk fun t => ?_
  match B with
  | [] => exact follows_error
  | [b] => exact follows_ok rfl
  | b :: c :: B =>
    unfold Bezier.call
    simp only [List.map_cons, List.length_cons, List.length_map]
    refine follows_ok (bezier_work_scaled t _ (fun i => ?_) 0)
    have : ∀ (l : List V) (i : ℕ), PointScaled k (l.getD i ⟨0, 0, 0⟩) ((l.map fun v : V => v * k).getD i ⟨0, 0, 0⟩) := by
      intro l i
      simp only [List.getD_eq_getElem?_getD, List.getElem?_map]
      cases l[i]? with
      | none => exact scaled_zero
      | some v => rfl
    exact this (b :: c :: B) i

theorem cum_go_scaled {l l' : List PathObj} (h : List.Forall₂ (PathScaled k) l l') : ∀ {a a' : ℝ}, a' = a * k →
    Follows (List.Forall₂ (LengthScaled k)) (Polyline.cumLengths.go a l) (Polyline.cumLengths.go a' l') := by
  induction h with
  | nil => intro a a' _; exact follows_ok .nil
  | cons h _ ih =>
    intro a a' ha
    unfold Polyline.cumLengths.go
    refine follows_bind h.length fun x x' hx => ?_
    rw [LengthScaled] at hx
    have e : a' + x' = (a + x) * k := by rw [ha, hx]; ring
    exact follows_bind (ih e) fun r r' hr => follows_pure (.cons e hr)

theorem breakpoints_scaled (hk : 0 < k) {l l' : List PathObj} (h : List.Forall₂ (PathScaled k) l l') :
    Follows Eq (Polyline.breakpoints l) (Polyline.breakpoints l') := by
  unfold Polyline.breakpoints Polyline.cumLengths
  refine follows_bind (R := List.Forall₂ (LengthScaled k)) (follows_bind (cum_go_scaled h (by simp)) fun r r' hr => follows_pure
    (.cons (show LengthScaled k 0 0 by simp [LengthScaled]) hr)) fun c c' hc => ?_
  have hlast : c'.getLastD 0 = c.getLastD 0 * k := by
    have : ∀ (c c' : List ℝ) (a a' : ℝ), a' = a * k → List.Forall₂ (LengthScaled k) c c' → c'.getLastD a' = c.getLastD a * k := by
      intro c c' a a' ha hc
      induction hc generalizing a a' with
      | nil => simpa using ha
      | cons h _ ih => simp only [List.getLastD_cons]; exact ih _ _ h
    exact this c c' 0 0 (by simp) hc
  intro x hx
  simp only [hlast]
  simp only at hx
  split at hx
  · cases hx
  · rename_i h0
    cases hx
    refine ⟨_, if_neg (mul_ne_zero h0 hk.ne'), ?_⟩
    generalize c.getLastD 0 = T
    clear hlast h0
    induction hc with
    | nil => rfl
    | cons h _ ih =>
      simp only [List.map_cons, ih]
      rw [show _ = _ from h, mul_div_mul_right _ _ hk.ne']

theorem loop_scaled (n : ℕ) (t : ℝ) {l l' : List (PathObj × ℝ × ℝ)}
    (h : List.Forall₂ (fun e e' => PathScaled k e.1 e'.1 ∧ e.2 = e'.2) l l') : ∀ (i : ℕ) {f f' : V}, PointScaled k f f' →
    Follows (PointScaled k) (Polyline.loop n t i f l) (Polyline.loop n t i f' l') := by
  induction h with
  | nil => intro i f f' hf; exact follows_ok hf
  | @cons e e' _ _ h _ ih =>
    intro i f f' hf
    obtain ⟨seg, tl, tu⟩ := e
    obtain ⟨seg', tl', tu'⟩ := e'
    obtain ⟨h1, h2⟩ := h
    simp only [Prod.mk.injEq] at h2
    obtain ⟨rfl, rfl⟩ := h2
    unfold Polyline.loop
    refine follows_bind (follows_refl _) fun u u' hu => ?_
    subst hu
    exact follows_bind (h1.call u) fun p p' hp => ih _ (scaled_add hf (scaled_mul hp _))

theorem polyline_scaled (hk : 0 < k) {l l' : List PathObj} (h : List.Forall₂ (PathScaled k) l l') :
    Follows (PathScaled k) (Polyline l) (Polyline l') := by
  unfold Polyline Polyline.init
  simp only [Bool.false_eq_true, if_false, pure_eq, ok_bind]
  refine follows_bind (R := fun s s' => s = ⟨l, s.tvals⟩ ∧ s' = ⟨l', s.tvals⟩) (follows_bind (breakpoints_scaled hk h) fun tv tv' e => by
    subst e
    exact follows_ok ⟨rfl, rfl⟩) fun s s' hs => ?_
  obtain ⟨h1, h2⟩ := hs
  rw [h2, h1]
  generalize s.tvals = tv
  refine follows_ok ⟨fun t => ?_, ?_⟩
  · show Follows _ (Polyline.call ⟨l, tv⟩ t) (Polyline.call ⟨l', tv⟩ t)
    have hz : List.Forall₂ (fun e e' => PathScaled k e.1 e'.1 ∧ e.2 = e'.2) (l.zip (tv.dropLast.zip tv.tail))
        (l'.zip (tv.dropLast.zip tv.tail)) := by
      generalize tv.dropLast.zip tv.tail = w
      clear h1 h2
      induction h generalizing w with
      | nil => exact .nil
      | cons h _ ih =>
        cases w with
        | nil => exact .nil
        | cons a w => exact .cons ⟨h, rfl⟩ (ih w)
    have hlen := h.length_eq
    unfold Polyline.call
    cases h with
    | nil => exact follows_error
    | cons hd tl =>
      cases tl with
      | nil => exact hd.call t
      | cons hd2 tl2 =>
        simp only
        rw [← hlen]
        refine follows_bind (hd.call t) fun p p' hp => loop_scaled _ t hz 0 ?_
        rw [PointScaled] at *
        subst hp
        ext <;> simp [Vec.imul]
  · show Follows _ (Polyline.length ⟨l, tv⟩) (Polyline.length ⟨l', tv⟩)
    unfold Polyline.length
    simp only
    have : ∀ a a' : ℝ, a' = a * k → Follows (LengthScaled k) (l.foldlM (fun L seg => do let l ← seg.length; return L + l) a)
        (l'.foldlM (fun L seg => do let l ← seg.length; return L + l) a') := by
      clear h1 h2
      induction h with
      | nil => intro a a' ha; exact follows_pure ha
      | cons h _ ih =>
        intro a a' ha
        simp only [List.foldlM_cons]
        refine follows_bind (R := LengthScaled k) (follows_bind h.length fun x x' hx => follows_pure ?_) fun y y' hy => ih y y' hy
        rw [LengthScaled] at *
        rw [ha, hx]; ring
    exact this 0 0 (by simp)

theorem arctan2_scaled (hk : 0 < k) (y x : ℝ) : Arc.arctan2 (y * k) (x * k) = Arc.arctan2 y x := by
  unfold Arc.arctan2
  rw [show (⟨x * k, y * k⟩ : ℂ) = (k : ℂ) * ⟨x, y⟩ by apply Complex.ext <;> simp <;> ring]
  exact Complex.arg_real_mul _ hk

theorem normalize_scaled (hk : 0 < k) {p p' : V} (h : PointScaled k p p') : Follows Eq p.normalize p'.normalize := by
  intro x hx
  unfold Vec.normalize at hx ⊢
  simp only [scaled_abs hk h] at hx ⊢
  rw [PointScaled] at h
  subst h
  split at hx
  · cases hx
  · rename_i h0
    cases hx
    refine ⟨_, if_neg (mul_ne_zero h0 hk.ne'), ?_⟩
    simp only [Vec.mul_x, Vec.mul_y, Vec.mul_z, mul_div_mul_right _ _ hk.ne']

theorem normalize_scaled_sq (hk : 0 < k) {p p' : V} (h : p' = p * (k * k)) : Follows Eq p.normalize p'.normalize :=
  normalize_scaled (mul_pos hk hk) h

theorem arc_eval_scaled (hk : 0 < k) {a b c a' b' c' : V} (hk1 : k ≤ 1 ∨ (a - c).abs = (b - c).abs) (ha : PointScaled k a a') (hb : PointScaled k b b')
    (hc : PointScaled k c c') (t : ℝ) :
    Follows (fun r r' => PointScaled k r.1 r'.1 ∧ LengthScaled k r.2 r'.2) (Arc.eval a b c t) (Arc.eval a' b' c' t) := by
  have hca := scaled_sub ha hc
  have hcb := scaled_sub hb hc
  have e1 := scaled_abs hk hca
  have e2 := scaled_abs hk hcb
  have e3 : Vec.cross (a' - c') (b' - c') = Vec.cross (a - c) (b - c) * (k * k) := by
    rw [show _ = _ from hca, show _ = _ from hcb]
    ext <;> simp <;> ring
  unfold Arc.eval
  simp only [e1, e2, e3]
  have key : ∀ {x y e : ℝ}, 0 ≤ e → k ≤ 1 ∨ x = y → ¬ |x - y| > e → ¬ |x * k - y * k| > e := by
    intro x y e h0 hk1 h
    rcases hk1 with hk1 | rfl
    · rw [← sub_mul, _root_.abs_mul, abs_of_pos hk]
      push Not at h ⊢
      exact (mul_le_of_le_one_right (_root_.abs_nonneg _) hk1).trans h
    · simpa using h0
  split
  · exact follows_throw
  rename_i h1
  rw [if_neg (key (by norm_num) hk1 h1)]
  refine follows_bind (normalize_scaled hk hca) fun t1 t1' ht => ?_
  subst ht
  split
  swap
  · exact follows_throw
  rename_i h2
  rw [if_pos (by rw [Vec.abs_mul]; exact mul_pos (by positivity) h2)]
  refine follows_bind (follows_and (normalize_scaled_sq hk rfl)) fun n n' hn => ?_
  obtain ⟨hn0, hn⟩ := hn
  subst hn
  have e4 : ((b' - c').toLocal t1 (Vec.cross n t1) n none).1 = ((b - c).toLocal t1 (Vec.cross n t1) n none).1 * k := by
    rw [show _ = _ from hcb]
    ext <;> simp [Vec.toLocal, Vec.dot] <;> ring
  simp only [e4, Vec.mul_x, Vec.mul_y, Vec.mul_z, arctan2_scaled hk]
  split
  · exact follows_throw
  rename_i h3
  have hz : ((b - c).toLocal t1 (Vec.cross n t1) n none).1.z = 0 := by
    unfold Vec.normalize at hn0
    simp only at hn0
    split at hn0
    · cases hn0
    · cases hn0
      simp [Vec.toLocal, Vec.dot]
      ring
  have h3' := key (x := ((b - c).toLocal t1 (Vec.cross n t1) n none).1.z) (y := 0) (e := 1 / 10 ^ 6) (by norm_num) (.inr hz) (by simpa using h3)
  rw [if_neg (by simpa using h3')]
  refine follows_pure ⟨?_, ?_⟩
  · show _ = _
    rw [show c' = c * k from hc]
    ext <;> simp [Vec.toGlobal] <;> ring
  · show _ = _
    ring

theorem arc_scaled (hk : 0 < k) {a b c a' b' c' : V} (hk1 : k ≤ 1 ∨ (a - c).abs = (b - c).abs) (ha : PointScaled k a a') (hb : PointScaled k b b')
    (hc : PointScaled k c c') : PathScaled k (Arc a b c) (Arc a' b' c') :=
  ⟨fun t => follows_bind (arc_eval_scaled hk hk1 ha hb hc t) fun _ _ h => follows_pure h.1,
    follows_bind (arc_eval_scaled hk hk1 ha hb hc 1) fun _ _ h => follows_pure h.2⟩

theorem table_scaled (hk : 0 < k) {f g : ℝ → Res V} (h : ∀ t, Follows (PointScaled k) (f t) (g t)) (dt : ℝ) (is : List ℕ) :
    ∀ {L L' : ℝ} {p p' : V}, L' = L * k → PointScaled k p p' →
    Follows (List.Forall₂ fun e e' => e'.1 = e.1 * k ∧ e'.2 = e.2) (ArcLen.table f dt is L p) (ArcLen.table g dt is L' p') := by
  induction is with
  | nil => intro L L' p p' _ _; exact follows_ok .nil
  | cons i is ih =>
    intro L L' p p' hL hp
    unfold ArcLen.table
    refine follows_bind (h _) fun q q' hq => ?_
    have e : L' + (q' - p').abs = (L + (q - p).abs) * k := by rw [hL, scaled_abs hk (scaled_sub hq hp)]; ring
    exact follows_bind (ih e hq) fun r r' hr => follows_pure (.cons ⟨e, rfl⟩ hr)

theorem interpAux_scaled (hk : 0 < k) {l l' : List (ℝ × ℝ)} (h : List.Forall₂ (fun e e' => e'.1 = e.1 * k ∧ e'.2 = e.2) l l')
    (x right : ℝ) : ArcLen.interpAux (x * k) right l' = ArcLen.interpAux x right l := by
  induction h with
  | nil => rfl
  | cons h tl ih =>
    cases tl with
    | nil =>
      unfold ArcLen.interpAux
      rw [h.1, h.2]
      simp only [gt_iff_lt, mul_lt_mul_iff_left₀ hk]
    | cons h2 tl2 =>
      unfold ArcLen.interpAux
      rw [ih, h.1, h.2, h2.1, h2.2]
      simp only [mul_lt_mul_iff_left₀ hk]
      split
      · rw [← sub_mul, ← sub_mul]
        congr 1
        rw [div_mul_eq_mul_div, div_mul_eq_mul_div, ← mul_assoc, mul_div_mul_right _ _ hk.ne']
      · rfl

theorem underlyingT_scaled (hk : 0 < k) {l l' : List (ℝ × ℝ)} (h : List.Forall₂ (fun e e' => e'.1 = e.1 * k ∧ e'.2 = e.2) l l')
    (t : ℝ) : ArcLen.underlyingT l' t = ArcLen.underlyingT l t := by
  have hlast : (l'.getLastD (0, 0)).1 = (l.getLastD (0, 0)).1 * k := by
    have : ∀ (c c' : List (ℝ × ℝ)) (a a' : ℝ × ℝ), a'.1 = a.1 * k → List.Forall₂ (fun e e' => e'.1 = e.1 * k ∧ e'.2 = e.2) c c' →
        (c'.getLastD a').1 = (c.getLastD a).1 * k := by
      intro c c' a a' ha hc
      induction hc generalizing a a' with
      | nil => simpa using ha
      | cons h _ ih => simp only [List.getLastD_cons]; exact ih _ _ h.1
    exact this l l' _ _ (by simp) h
  unfold ArcLen.underlyingT
  simp only [hlast]
  rw [← mul_assoc]
  unfold ArcLen.interp
  cases h with
  | nil => rfl
  | cons h1 tl =>
    simp only [h1.1, mul_lt_mul_iff_left₀ hk]
    rw [interpAux_scaled hk (.cons h1 tl)]

theorem arcLength_scaled (hk : 0 < k) {p q : PathObj} (h : PathScaled k p q) (n : ℤ) :
    Follows (PathScaled k) (ArcLengthParameterizedPath p n) (ArcLengthParameterizedPath q n) := by
  unfold ArcLengthParameterizedPath
  split
  · exact follows_error
  refine follows_bind (R := List.Forall₂ fun e e' => e'.1 = e.1 * k ∧ e'.2 = e.2) ?_ fun l l' hl => follows_pure ⟨fun t => ?_, h.length⟩
  · unfold ArcLen.setArcLengths
    refine follows_bind (follows_refl _) fun dt dt' e => ?_
    subst e
    exact follows_bind (h.call 0) fun x x' hx => follows_bind (table_scaled hk h.call dt _ (by simp) hx) fun r r' hr =>
      follows_pure (.cons ⟨by simp, rfl⟩ hr)
  · simp only [underlyingT_scaled hk hl]
    exact h.call _

theorem subRanged_scaled {p q : PathObj} (h : PathScaled k p q) (t0 t1 : ℝ) :
    PathScaled k (SubRangedPath p t0 t1) (SubRangedPath q t0 t1) := ⟨fun _ => h.call _, h.length⟩

theorem reversed_scaled {p q : PathObj} (h : PathScaled k p q) : PathScaled k (ReversedPath p) (ReversedPath q) :=
  subRanged_scaled h 1 0

theorem elipse_scaled (hk : 0 < k) (ptan : ℝ → ℝ) {c c' : V} (hc : PointScaled k c c') {th th' w w' : ℝ} (hth : th' = th * k)
    (hw : w' = w * k) (side : String) : PathScaled k (ElipsePath ptan c th w side) (ElipsePath ptan c' th' w' side) := by
  refine sampled_scaled hk fun r => ?_
  have key : ∀ θ : ℝ, Follows (PointScaled k)
      (do
        let x ← pdiv (w * |th|) (Real.sqrt (|th| * |th| + (w * ptan θ) ^ 2))
        return c + (⟨x * Real.cos (Real.pi / 2), x * Real.sin (Real.pi / 2), x * ptan θ⟩ : V))
      (do
        let x ← pdiv (w' * |th'|) (Real.sqrt (|th'| * |th'| + (w' * ptan θ) ^ 2))
        return c' + (⟨x * Real.cos (Real.pi / 2), x * Real.sin (Real.pi / 2), x * ptan θ⟩ : V)) := by
    intro θ
    refine follows_bind (R := LengthScaled k) ?_ fun x x' hx => follows_pure ?_
    · apply follows_pdiv_length hk
      · rw [hth, hw, _root_.abs_mul, abs_of_pos hk]; ring
      · rw [hth, hw, _root_.abs_mul, abs_of_pos hk,
          show |th| * k * (|th| * k) + (w * k * ptan θ) ^ 2 = (|th| * |th| + (w * ptan θ) ^ 2) * k ^ 2 by ring,
          Real.sqrt_mul' _ (by positivity), Real.sqrt_sq hk.le]
    · rw [LengthScaled] at hx
      subst hx
      exact scaled_add hc (scaled_mk (by ring) (by ring) (by ring))
  unfold elipseAt
  simp only
  split
  · exact key _
  split
  · exact key _
  · exact follows_throw

theorem offsetPath_scaled (hk : 0 < k) {p q : PathObj} (h : PathScaled k p q) {f g : OffFn} (hf : OffFnScaled k f g) :
    PathScaled k (OffsetPathFunction p f) (OffsetPathFunction q g) := by
  refine sampled_scaled hk fun t => ?_
  unfold offsetPathAt
  refine follows_bind (h.call t) fun x x' hx => ?_
  have hf := hf x.x x.y 0
  rw [zero_mul] at hf
  rw [show x' = x * k from hx]
  exact follows_bind hf fun y y' hy => follows_pure (scaled_add rfl hy)

theorem trailingEdgePath_scaled (hk : 0 < k) {a b a' b' : V} (ha : PointScaled k a a') (hb : PointScaled k b b') {f g : OffFn}
    (hf : OffFnScaled k f g) : PathScaled k (TrailingEdgePath a b f) (TrailingEdgePath a' b' g) :=
  offsetPath_scaled hk (line_scaled hk ha hb) hf

theorem meanPath_scaled (hk : 0 < k) {p q p' q' : PathObj} (h : PathScaled k p p') (g : PathScaled k q q') :
    PathScaled k (GeometricMeanPathFunction p q) (GeometricMeanPathFunction p' q') :=
  sampled_scaled hk fun t => follows_bind (h.call t) fun _ _ hx => follows_bind (g.call t) fun _ _ hy =>
    follows_pure (scaled_mul (scaled_add hx hy) _)

/-! ## Surfaces -/

theorem approxEq_scaled (hk : 0 < k) (hk1 : k ≤ 1) {p q p' q' : V} (hp : PointScaled k p p') (hq : PointScaled k q q')
    (h : p.approxEq q) : p'.approxEq q' := by
  rw [PointScaled] at hp hq
  subst hp hq
  have : ∀ a b : ℝ, Vec.isclose a b (1 / 100) (1 / 100000) → Vec.isclose (a * k) (b * k) (1 / 100) (1 / 100000) := by
    intro a b h
    unfold Vec.isclose at *
    rw [← sub_mul, _root_.abs_mul, _root_.abs_mul, abs_of_pos hk]
    nlinarith
  exact ⟨this _ _ h.1, this _ _ h.2.1, this _ _ h.2.2⟩

theorem approxEq_self (p : V) : p.approxEq p := by
  have : ∀ a : ℝ, Vec.isclose a a (1 / 100) (1 / 100000) := by
    intro a
    unfold Vec.isclose
    rw [sub_self, abs_zero]
    positivity
  exact ⟨this _, this _, this _⟩

theorem coons_scaled' (hk : 0 < k) {n e s w n' e' s' w' : PathObj}
    (hk1 : k ≤ 1 ∨ (s.call 0 = w.call 0 ∧ s.call 1 = e.call 0 ∧ n.call 0 = w.call 1 ∧ n.call 1 = e.call 1)) (hn : PathScaled k n n') (he : PathScaled k e e')
    (hs : PathScaled k s s') (hw : PathScaled k w w') : Follows (SurfScaled k) (CoonsPatch n e s w) (CoonsPatch n' e' s' w') := by
  unfold CoonsPatch Coons.ofEdges
  simp only [bind_assoc]
  refine follows_bind (follows_and (hs.call 0)) fun a a' ha => follows_bind (follows_and (hs.call 1)) fun b b' hb =>
    follows_bind (follows_and (hn.call 0)) fun c c' hc => follows_bind (follows_and (hn.call 1)) fun d d' hd =>
    follows_bind (follows_and (hw.call 0)) fun a1 a1' ha1 => follows_bind (follows_and (he.call 0)) fun b1 b1' hb1 =>
    follows_bind (follows_and (hw.call 1)) fun c1 c1' hc1 => follows_bind (follows_and (he.call 1)) fun d1 d1' hd1 => ?_
  obtain ⟨qa, ha⟩ := ha
  obtain ⟨qb, hb⟩ := hb
  obtain ⟨qc, hc⟩ := hc
  obtain ⟨qd, hd⟩ := hd
  obtain ⟨qa1, ha1⟩ := ha1
  obtain ⟨qb1, hb1⟩ := hb1
  obtain ⟨qc1, hc1⟩ := hc1
  obtain ⟨qd1, hd1⟩ := hd1
  have key : ∀ {p q p' q' : V}, k ≤ 1 ∨ p = q → PointScaled k p p' → PointScaled k q q' → p.approxEq q → p'.approxEq q' := by
    intro p q p' q' h hp hq hpq
    rcases h with h | rfl
    · exact approxEq_scaled hk h hp hq hpq
    · rw [PointScaled] at hp hq
      rw [hp, hq]
      exact approxEq_self _
  have k1 : k ≤ 1 ∨ a = a1 := hk1.imp id fun h => by rw [qa, qa1] at h; exact Except.ok.inj h.1
  have k2 : k ≤ 1 ∨ b = b1 := hk1.imp id fun h => by rw [qb, qb1] at h; exact Except.ok.inj h.2.1
  have k3 : k ≤ 1 ∨ c = c1 := hk1.imp id fun h => by rw [qc, qc1] at h; exact Except.ok.inj h.2.2.1
  have k4 : k ≤ 1 ∨ d = d1 := hk1.imp id fun h => by rw [qd, qd1] at h; exact Except.ok.inj h.2.2.2
  intro S hS
  by_cases g1 : a.approxEq a1 <;> by_cases g2 : b.approxEq b1 <;> by_cases g3 : c.approxEq c1 <;> by_cases g4 : d.approxEq d1 <;>
    simp only [g1, g2, g3, g4, not_true, not_false_iff, if_true, if_false, throw_eq, error_bind, pure_eq, ok_bind, reduceCtorEq] at hS
  cases hS
  simp only [key k1 ha ha1 g1, key k2 hb hb1 g2, key k3 hc hc1 g3, key k4 hd hd1 g4, not_true, if_false, pure_eq, ok_bind]
  refine ⟨_, rfl, fun r t => ?_⟩
  unfold Coons.call
  simp only
  refine follows_bind (hs.call r) fun x x' hx => follows_bind (hn.call r) fun y y' hy => follows_bind (hw.call t) fun z z' hz =>
    follows_bind (he.call t) fun u u' hu => follows_pure ?_
  rw [PointScaled] at *
  subst ha hb hc hd hx hy hz hu
  ext <;> simp [Coons.blend] <;> ring

theorem coons_scaled (hk : 0 < k) (hk1 : k ≤ 1) {n e s w n' e' s' w' : PathObj} (hn : PathScaled k n n') (he : PathScaled k e e')
    (hs : PathScaled k s s') (hw : PathScaled k w w') : Follows (SurfScaled k) (CoonsPatch n e s w) (CoonsPatch n' e' s' w') :=
  coons_scaled' hk (.inl hk1) hn he hs hw

theorem offsetPatch_scaled {S T : Surf} (h : SurfScaled k S T) {f g : OffFn} (hf : OffFnScaled k f g) :
    SurfScaled k (OffsetPatchFunction S f) (OffsetPatchFunction T g) := by
  intro r s
  unfold OffsetPatchFunction
  refine follows_bind (h r s) fun x x' hx => ?_
  rw [show x' = x * k from hx]
  exact follows_bind (hf x.x x.y x.z) fun y y' hy => follows_bind (h r s) fun z z' hz => follows_pure (scaled_add hz hy)

theorem leAngle_scaled (hk : 0 < k) {p q : PathObj} (h : PathScaled k p q) (t : ℝ) : Follows Eq (leAngle p t) (leAngle q t) := by
  unfold leAngle
  split
  · exact follows_refl _
  split
  · exact follows_refl _
  refine follows_bind (h.call _) fun x x' hx => follows_bind (h.call _) fun y y' hy => follows_pure ?_
  rw [PointScaled] at hx hy
  subst hx hy
  simp only [Vec.mul_y, Vec.mul_x, ← sub_mul, arctan2_scaled hk]

theorem ellipticEdge_scaled (hk : 0 < k) (ptan : ℝ → ℝ) {th th' w w' : ℝ} (hth : th' = th * k) (hw : w' = w * k) (side : String) (r : ℝ)
    {m m' : PathObj} (hm : PathScaled k m m') (t : ℝ) {b b' : V} (hb : PointScaled k b b') :
    Follows (PointScaled k) (do
      let elipse_norm ← ArcLengthParameterizedPath (ElipsePath ptan ⟨0, 0, 0⟩ th w side)
      let pos_elipse ← elipse_norm.call r
      let angle ← leAngle m t
      return b + (⟨pos_elipse.y * Real.cos angle, pos_elipse.y * Real.sin angle, pos_elipse.z⟩ : V))
    (do
      let elipse_norm ← ArcLengthParameterizedPath (ElipsePath ptan ⟨0, 0, 0⟩ th' w' side)
      let pos_elipse ← elipse_norm.call r
      let angle ← leAngle m' t
      return b' + (⟨pos_elipse.y * Real.cos angle, pos_elipse.y * Real.sin angle, pos_elipse.z⟩ : V)) := by
  refine follows_bind (arcLength_scaled hk (elipse_scaled hk ptan scaled_zero hth hw side) 1000) fun e e' he =>
    follows_bind (he.call r) fun x x' hx => follows_bind (leAngle_scaled hk hm t) fun a a' ha => follows_pure (scaled_add hb ?_)
  subst ha
  rw [PointScaled] at hx
  subst hx
  exact scaled_mk (by simp; ring) (by simp; ring) (by simp)

theorem meanLeadingEdge_scaled (hk : 0 < k) (ptan : ℝ → ℝ) {m g m' g' : PathObj} (hm : PathScaled k m m') (hg : PathScaled k g g')
    {f f' : ℝ → Res ℝ} (hf : WidthScaled k f f') (t0 t1 : ℝ) (side : String) :
    SurfScaled k (MeanLeadingEdgePatchFunction ptan m g f t0 t1 side) (MeanLeadingEdgePatchFunction ptan m' g' f' t0 t1 side) := by
  intro tr r
  unfold MeanLeadingEdgePatchFunction
  refine follows_bind (hm.call _) fun x x' hx => follows_bind (hg.call _) fun y y' hy => follows_bind (hf _) fun w w' hw => ?_
  have e : x'.z - y'.z = (x.z - y.z) * k := by
    rw [PointScaled] at hx hy
    subst hx hy
    simp; ring
  exact ellipticEdge_scaled hk ptan e hw side r hm _ hx

theorem leadingEdge_scaled (hk : 0 < k) (ptan : ℝ → ℝ) {m m' : PathObj} (hm : PathScaled k m m') {tf tf' : OffFn}
    (htf : OffFnScaled k tf tf') {f f' : ℝ → Res ℝ} (hf : WidthScaled k f f') (t0 t1 : ℝ) (side : String) :
    SurfScaled k (LeadingEdgePatchFunction ptan m tf f t0 t1 side) (LeadingEdgePatchFunction ptan m' tf' f' t0 t1 side) := by
  intro tr r
  unfold LeadingEdgePatchFunction
  refine follows_bind (hm.call _) fun x x' hx => ?_
  have h1 := htf x.x x.y 0
  rw [zero_mul] at h1
  rw [show x' = x * k from hx]
  refine follows_bind h1 fun o o' ho => follows_bind (hf _) fun w w' hw => ?_
  refine follows_bind (arcLength_scaled hk (elipse_scaled hk ptan scaled_zero (by rw [show o' = _ from ho]; rfl) hw side) 1000) fun e e' he =>
    follows_bind (he.call r) fun y y' hy => follows_bind (leAngle_scaled hk hm _) fun a a' ha => follows_bind (hm.call _) fun b b' hb =>
      follows_pure (scaled_add hb ?_)
  subst ha
  rw [PointScaled] at hy
  subst hy
  exact scaled_mk (by simp; ring) (by simp; ring) (by simp)

theorem flatLeadingEdge_scaled {p q p' q' : PathObj} (hp : PathScaled k p p') (hq : PathScaled k q q') (t0 t1 : ℝ) :
    SurfScaled k (FlatLeadingEdgePatchFunction p q t0 t1) (FlatLeadingEdgePatchFunction p' q' t0 t1) := by
  intro tr r
  unfold FlatLeadingEdgePatchFunction
  refine follows_bind (hp.call _) fun x x' hx => follows_bind (hq.call _) fun y y' hy => follows_pure ?_
  rw [PointScaled] at hx hy
  subst hx hy
  exact scaled_mk (by simp) (by simp) (by simp; ring)

theorem ruled_scaled (hk : 0 < k) (hk1 : k ≤ 1) {s n s' n' : PathObj} (h1 : PathScaled k s s') (h2 : PathScaled k n n') :
    Follows (SurfScaled k)
      (do
        let s0 ← s.call 0
        let n0 ← n.call 0
        let s1 ← s.call 1
        let n1 ← n.call 1
        CoonsPatch n (Line s1 n1) s (Line s0 n0))
      (do
        let s0 ← s'.call 0
        let n0 ← n'.call 0
        let s1 ← s'.call 1
        let n1 ← n'.call 1
        CoonsPatch n' (Line s1 n1) s' (Line s0 n0)) :=
  follows_bind (h1.call 0) fun _ _ g1 => follows_bind (h2.call 0) fun _ _ g2 => follows_bind (h1.call 1) fun _ _ g3 =>
    follows_bind (h2.call 1) fun _ _ g4 => coons_scaled hk hk1 h2 (line_scaled hk g3 g4) h1 (line_scaled hk g1 g2)

theorem trailingEdgePatch_scaled (hk : 0 < k) (hk1 : k ≤ 1) {a b a' b' : V} (ha : PointScaled k a a') (hb : PointScaled k b b')
    {p p' : PathObj} (hp : PathScaled k p p') {l l' : ℝ} (hl : l' = l * k) (θ : ℝ) (side : String) :
    Follows (SurfScaled k) (TrailingEdgePatch a b p l θ side) (TrailingEdgePatch a' b' p' l' θ side) := by
  rw [PointScaled] at ha hb
  subst ha hb hl
  have ht : PathScaled k (Line ⟨a.x - l, a.y, 0 + l * Real.sin θ⟩ ⟨b.x - l, b.y, 0 + l * Real.sin θ⟩)
      (Line ⟨(a * k).x - l * k, (a * k).y, 0 + l * k * Real.sin θ⟩ ⟨(b * k).x - l * k, (b * k).y, 0 + l * k * Real.sin θ⟩) :=
    line_scaled hk (scaled_mk (by simp; ring) (by simp) (by ring)) (scaled_mk (by simp; ring) (by simp) (by ring))
  unfold TrailingEdgePatch
  simp only [pure_eq, ok_bind]
  split
  · exact ruled_scaled hk hk1 ht hp
  split
  · exact ruled_scaled hk hk1 hp ht
  · exact follows_throw

theorem meanTrailingEdgePatch_scaled (hk : 0 < k) (hk1 : k ≤ 1) {m m' p p' : PathObj} (hm : PathScaled k m m') (hp : PathScaled k p p')
    {l l' : ℝ} (hl : l' = l * k) (θ : ℝ) (side : String) :
    Follows (SurfScaled k) (MeanTrailingEdgePatch m p l θ side) (MeanTrailingEdgePatch m' p' l' θ side) := by
  subst hl
  unfold MeanTrailingEdgePatch
  simp only [pure_eq, ok_bind]
  split
  · refine follows_bind (hm.call 0) fun a a' ha => follows_bind (hm.call 1) fun b b' hb => ?_
    rw [PointScaled] at ha hb
    subst ha hb
    have ht : PathScaled k (Line ⟨a.x - l * Real.cos θ, a.y, a.z + l * Real.sin θ⟩ ⟨b.x - l * Real.cos θ, b.y, b.z + l * Real.sin θ⟩)
        (Line ⟨(a * k).x - l * k * Real.cos θ, (a * k).y, (a * k).z + l * k * Real.sin θ⟩
          ⟨(b * k).x - l * k * Real.cos θ, (b * k).y, (b * k).z + l * k * Real.sin θ⟩) :=
      line_scaled hk (scaled_mk (by simp; ring) (by simp) (by simp; ring)) (scaled_mk (by simp; ring) (by simp) (by simp; ring))
    split
    · exact ruled_scaled hk hk1 ht hp
    · exact ruled_scaled hk hk1 hp ht
  · exact follows_throw

theorem revolvedPatch_scaled {p q : PathObj} (h : PathScaled k p q) (a b : ℝ) : SurfScaled k (RevolvedPatch p a b) (RevolvedPatch q a b) := by
  intro r s
  unfold RevolvedPatch
  refine follows_bind (h.call r) fun x x' hx => follows_pure ?_
  rw [PointScaled] at hx
  subst hx
  exact scaled_mk (by simp) (by simp; ring) (by simp; ring)

theorem sweptFromEdges_scaled {l l' : List PathObj} (h : List.Forall₂ (PathScaled k) l l') :
    SurfScaled k (SweptPatchfromEdges l) (SweptPatchfromEdges l') := by
  intro r s
  unfold SweptPatchfromEdges
  simp only [← h.length_eq]
  split
  · exact follows_bind (follows_getIdx h _) fun e e' he => he.call s
  · split
    · exact follows_error
    · refine follows_bind (follows_getIdx h _) fun e e' he => follows_bind (he.call s) fun x x' hx =>
        follows_bind (follows_getIdx h _) fun e1 e1' he1 => follows_bind (he1.call s) fun y y' hy => follows_bind (follows_refl _) fun u u' hu =>
        follows_bind (follows_refl _) fun v v' hv => follows_bind (R := Eq) ?_ fun α α' hα => follows_pure ?_
      · subst hu hv; exact follows_refl _
      · subst hα; exact scaled_add (scaled_mul hy _) (scaled_mul hx _)

theorem rotAbout_scaled (a : Ax) (θ : ℝ) {p p' : V} (h : PointScaled k p p') : PointScaled k (rotAbout a θ p) (rotAbout a θ p') := by
  rw [PointScaled] at *
  subst h
  cases a <;> (ext <;> simp [rotAbout] <;> ring)

theorem rotated_scaled {S T : Surf} (h : SurfScaled k S T) (θ : ℝ) (axis : String) {p p' : V} (hp : PointScaled k p p') :
    SurfScaled k (RotatedPatch S θ axis p) (RotatedPatch T θ axis p') := by
  intro r s
  unfold RotatedPatch
  refine follows_bind (h r s) fun x x' hx => ?_
  split
  · exact follows_pure (scaled_add (rotAbout_scaled _ _ (scaled_sub hx hp)) hp)
  · exact follows_throw

theorem mirrored_scaled {S T : Surf} (h : SurfScaled k S T) (axis : String) : SurfScaled k (MirroredPatch S axis) (MirroredPatch T axis) := by
  intro r s
  unfold MirroredPatch
  refine follows_bind (h r s) fun x x' hx => follows_pure ?_
  rw [PointScaled] at *
  subst hx
  unfold mirrorAlong
  split <;> (ext <;> simp)

theorem curved_scaled {S T : Surf} (h : SurfScaled k S T) (d : Option String) {f f' g g' : ℝ → ℝ → Res ℝ}
    (hf : ∀ x y, Follows (LengthScaled k) (f x y) (f' (x * k) (y * k))) (hg : ∀ x y, Follows Eq (g x y) (g' (x * k) (y * k))) :
    SurfScaled k (CurvedPatch S d (some f) (some g)) (CurvedPatch T d (some f') (some g')) := by
  intro r s
  unfold CurvedPatch
  simp only
  refine follows_bind (h r s) fun x x' hx => ?_
  rw [PointScaled] at hx
  subst hx
  refine follows_bind (hf _ _) fun o o' ho => follows_bind (hg _ _) fun a a' ha => ?_
  subst ha
  rw [LengthScaled] at ho
  subst ho
  split
  · exact follows_pure (scaled_mk (by simp; ring) (by simp) (by simp; ring))
  split
  · exact follows_pure (scaled_mk (by simp) (by simp; ring) (by simp; ring))
  · exact follows_throw

theorem cubePatch_scaled {a a' : ℝ} (ha : a' = a * k) {c c' : V} (hc : PointScaled k c c') (face : String) :
    SurfScaled k (CubePatch a c face) (CubePatch a' c' face) := by
  intro r s
  unfold CubePatch
  refine follows_bind (follows_refl _) fun p p' hp => follows_pure ?_
  subst hp ha
  rw [PointScaled] at hc
  subst hc
  exact scaled_mk (by simp; ring) (by simp; ring) (by simp; ring)

theorem spherePatch_scaled {a a' : ℝ} (ha : a' = a * k) {c c' : V} (hc : PointScaled k c c') (face : String) :
    SurfScaled k (SpherePatch a c face) (SpherePatch a' c' face) := by
  intro r s
  unfold SpherePatch
  refine follows_bind (follows_refl _) fun p p' hp => ?_
  subst hp
  refine follows_bind (follows_refl _) fun u u' hu => follows_bind (follows_refl _) fun v v' hv => follows_bind (follows_refl _) fun w w' hw =>
    follows_pure ?_
  subst hu hv hw ha
  rw [PointScaled] at hc
  subst hc
  exact scaled_mk (by simp; ring) (by simp; ring) (by simp; ring)

/-! ## Root finding -/

theorem bisectLoop_scaled (hk : 0 < k) {f g : ℝ → Res ℝ} (h : WidthScaled k f g) {fa fa' : ℝ} (ha : fa' = fa * k) (n : ℕ) :
    ∀ xa d : ℝ, Follows Eq (bisectLoop f fa n xa d) (bisectLoop g fa' n xa d) := by
  subst ha
  have neg : ∀ x : ℝ, x * k < 0 ↔ x < 0 := fun x => by
    constructor
    · intro hx; by_contra h0; push Not at h0; exact absurd (mul_nonneg h0 hk.le) (not_le.2 hx)
    · intro hx; exact mul_neg_of_neg_of_pos hx hk
  induction n with
  | zero => intro xa d; exact follows_error
  | succ n ih =>
    intro xa d
    unfold bisectLoop
    refine follows_bind (h _) fun x x' hx => ?_
    rw [LengthScaled] at hx
    subst hx
    simp only [mul_eq_zero, hk.ne', or_false, neg]
    split
    · exact follows_refl _
    · exact ih _ _

theorem roundedBisect_scaled (hk : 0 < k) : FindScaled k roundedBisect := by
  intro f g h
  have neg : ∀ x : ℝ, x * k < 0 ↔ x < 0 := fun x => by
    constructor
    · intro hx; by_contra h0; push Not at h0; exact absurd (mul_nonneg h0 hk.le) (not_le.2 hx)
    · intro hx; exact mul_neg_of_neg_of_pos hx hk
  unfold roundedBisect scipyBisect
  refine follows_bind (R := Eq) ?_ fun x y e => by subst e; exact follows_refl _
  refine follows_bind (h 0) fun a a' ha => follows_bind (h 1) fun b b' hb => ?_
  rw [LengthScaled] at ha hb
  subst ha hb
  simp only [mul_eq_zero, hk.ne', or_false, neg]
  split
  · exact follows_refl _
  split
  · exact follows_refl _
  split
  · exact follows_throw
  · exact bisectLoop_scaled hk h rfl _ _ _

end
end HV
