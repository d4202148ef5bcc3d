import Verif.Model.Text
import Verif.Props.Design

/-!
# C141: the texts of vehicles, components and patches
-/

namespace HV
namespace Spec

/-- The types in the list, each once, in the order of their first occurrences. -/
def Firsts (l ts : List String) : Prop :=
  (∀ t, t ∈ ts ↔ t ∈ l) ∧ ts.Pairwise fun a b => l.idxOf a < l.idxOf b

/-- The text of a vehicle of this name with components of the types `tys`, in the order in which they were added. -/
def VehicleText (name : String) (tys : List String) (text : String) : Prop :=
  (tys = [] ∧ text = "Parameterised " ++ name ++ " (no components)") ∨
  (tys ≠ [] ∧ ∃ ts, Firsts tys ts ∧ text = "Parameterised " ++ name ++ " with " ++ toString tys.length ++ " components (" ++
    ", ".intercalate (ts.map fun t => toString (tys.count t) ++ " " ++ t) ++ ")")

open Classical in
/-- The types of the components added to the vehicle by a script, in order: those of the calls of `add_component` that do not raise. -/
noncomputable def addedTypes (ty : ℕ → String) : List Veh.Call → List String
  | [] => []
  | .add id _ :: cs => if VehicleType (ty id) then ty id :: addedTypes ty cs else addedTypes ty cs
  | _ :: cs => addedTypes ty cs

end Spec

open Spec

/-- At most one list is that of the first occurrences. -/
theorem Spec.Firsts.unique {l ts ts' : List String} (h : Firsts l ts) (h' : Firsts l ts') : ts = ts' := by
  have nd : ∀ {x : List String}, (x.Pairwise fun a b => l.idxOf a < l.idxOf b) → x.Nodup := fun hx =>
    hx.imp fun {a b} hab e => by subst e; exact lt_irrefl _ hab
  have hp : ts.Perm ts' := (List.perm_ext_iff_of_nodup (nd h.2) (nd h'.2)).2 fun t => (h.1 t).trans (h'.1 t).symm
  refine hp.eq_of_pairwise (le := fun a b => l.idxOf a < l.idxOf b) ?_ h.2 h'.2
  intro a b _ _ h1 h2
  exact absurd h2 (lt_asymm h1)

/-- The counts of the types in the list `l`. -/
def CountsOf (l : List String) (d : Dict String ℕ) : Prop :=
  Firsts l d.keys ∧ d = d.keys.map fun t => (t, l.count t)

theorem countsOf_nil : CountsOf [] [] := ⟨⟨by simp [Dict.keys], by simp [Dict.keys]⟩, rfl⟩

theorem dict_set_map (l : List String) (f : String → ℕ) (k : String) (v : ℕ) (hn : l.Nodup) (hk : k ∈ l) :
    Dict.set (l.map fun t => (t, f t)) k v = l.map fun t => (t, if t = k then v else f t) := by
  induction l with
  | nil => cases hk
  | cons a l ih =>
    obtain ⟨ha, hl⟩ := List.nodup_cons.1 hn
    by_cases h : a = k
    · subst h
      simp only [List.map_cons, Dict.set, if_true]
      congr 1
      refine List.map_congr_left fun t ht => ?_
      rw [if_neg]
      rintro rfl
      exact ha ht
    · simp only [List.map_cons, Dict.set, if_neg h]
      rw [ih hl ((List.mem_cons.1 hk).resolve_left (Ne.symm h))]

theorem countsOf_get {l : List String} {d : Dict String ℕ} (h : CountsOf l d) (t : String) : (d.get? t).getD 0 = l.count t := by
  have key : ∀ ks : List String, (Dict.get? (ks.map fun t => (t, l.count t)) t).getD 0 = if t ∈ ks then l.count t else 0 := by
    intro ks
    induction ks with
    | nil => rfl
    | cons a ks ih =>
      by_cases ha : a = t
      · subst ha; simp [Dict.get?]
      · simp only [List.map_cons, Dict.get?, if_neg ha, ih, List.mem_cons, Ne.symm ha, false_or]
  rw [h.2, key]
  split
  · rfl
  · rename_i hn
    rw [h.1.1] at hn
    exact (List.count_eq_zero.2 hn).symm

theorem firsts_nodup {l ts : List String} (h : Firsts l ts) : ts.Nodup :=
  h.2.imp fun {a b} hab e => by subst e; exact lt_irrefl _ hab

theorem countsOf_snoc {l : List String} {d : Dict String ℕ} (h : CountsOf l d) (t : String) :
    CountsOf (l ++ [t]) (d.set t ((d.get? t).getD 0 + 1)) := by
  rw [countsOf_get h]
  have hidx : ∀ a ∈ l, (l ++ [t]).idxOf a = l.idxOf a := fun a ha => List.idxOf_append_of_mem ha
  by_cases ht : t ∈ l
  · have hk : t ∈ d.keys := (h.1.1 t).2 ht
    have hkeys : (d.set t (l.count t + 1)).keys = d.keys := by rw [Dict.keys_set, if_pos hk]
    refine ⟨⟨fun s => ?_, ?_⟩, ?_⟩
    · rw [hkeys, h.1.1]
      simp only [List.mem_append, List.mem_singleton]
      exact ⟨.inl, fun hs => hs.elim id fun e => e ▸ ht⟩
    · rw [hkeys]
      refine h.1.2.imp_of_mem fun {a b} ha hb hab => ?_
      rw [hidx a ((h.1.1 a).1 ha), hidx b ((h.1.1 b).1 hb)]
      exact hab
    · rw [hkeys]
      conv_lhs => rw [h.2]
      rw [dict_set_map _ _ _ _ (firsts_nodup h.1) hk]
      refine List.map_congr_left fun s _ => ?_
      by_cases hs : s = t
      · subst hs; simp
      · simp [hs, List.count_append, Ne.symm hs]
  · have hk : t ∉ d.keys := fun hk => ht ((h.1.1 t).1 hk)
    have hset : d.set t (l.count t + 1) = d ++ [(t, l.count t + 1)] := Dict.set_not_mem _ _ _ hk
    have hkeys : (d.set t (l.count t + 1)).keys = d.keys ++ [t] := by rw [Dict.keys_set, if_neg hk]
    refine ⟨⟨fun s => ?_, ?_⟩, ?_⟩
    · rw [hkeys]
      simp only [List.mem_append, h.1.1]
    · rw [hkeys, List.pairwise_append]
      refine ⟨h.1.2.imp_of_mem fun {a b} ha hb hab => ?_, List.pairwise_singleton _ _, ?_⟩
      · rw [hidx a ((h.1.1 a).1 ha), hidx b ((h.1.1 b).1 hb)]
        exact hab
      · intro a ha b hb
        rw [List.mem_singleton] at hb
        subst hb
        have ha' := (h.1.1 a).1 ha
        rw [hidx a ha', List.idxOf_append_of_notMem ht]
        exact lt_of_lt_of_le (List.idxOf_lt_length_of_mem ha') (by simp)
    · rw [hkeys, hset, List.map_append]
      congr 1
      · conv_lhs => rw [h.2]
        refine List.map_congr_left fun s hs => ?_
        have hs' : s ≠ t := fun e => hk (e ▸ hs)
        simp [List.count_append, Ne.symm hs']
      · simp [List.count_append]

namespace Veh

/-- What the text of a vehicle is made from. -/
def Listed (st : VState) (l : List String) : Prop :=
  st.veh.components.length = l.length ∧ CountsOf l st.veh.counts

theorem addedTypes_cons (ty : ℕ → String) (c : Call) (cs : List Call) : addedTypes ty (c :: cs) = addedTypes ty [c] ++ addedTypes ty cs := by
  cases c with
  | add id o => by_cases h : VehicleType (ty id) <;> simp [addedTypes, h]
  | _ => rfl

theorem exec_listed (lib : Lib) (depth : ℕ) (st : VState) (c : Call) (l : List String) (h : Listed st l) :
    Listed (exec lib depth st c).2 (l ++ addedTypes (fun k => (st.heap k).componenttype) [c]) := by
  have key : Works c → Listed (exec lib depth st c).2 l := by
    intro hc
    have hb := C131_work lib depth st c hc
    have h1 := congrArg (fun v : Veh => v.components) hb
    have h2 := congrArg (fun v : Veh => v.counts) hb
    exact ⟨by rw [show (exec lib depth st c).2.veh.components = st.veh.components from h1]; exact h.1,
      by rw [show (exec lib depth st c).2.veh.counts = st.veh.counts from h2]; exact h.2⟩
  cases c with
  | configure n v => simp only [addedTypes, List.append_nil]; cases n <;> exact h
  | add id o =>
    show Listed (addComponent st id o).2 _
    unfold addComponent
    by_cases ht : VehicleType (st.heap id).componenttype
    · rw [if_pos ((mem_allowable _).2 ht)]
      simp only [addedTypes, if_pos ht]
      exact ⟨by simp [record, h.1], countsOf_snoc h.2 _⟩
    · rw [if_neg (fun hm => ht ((mem_allowable _).1 hm))]
      simp only [addedTypes, if_neg ht, List.append_nil]
      exact h
  | addChild self child o => simp only [addedTypes, List.append_nil]; exact key trivial
  | later t => simp only [addedTypes, List.append_nil]; exact h
  | analyseLater d => simp only [addedTypes, List.append_nil]; exact h
  | property n x => simp only [addedTypes, List.append_nil]; exact h
  | generate => simp only [addedTypes, List.append_nil]; exact key trivial
  | transform t => simp only [addedTypes, List.append_nil]; exact key trivial
  | analyse d => simp only [addedTypes, List.append_nil]; exact key trivial
  | toStl p m => simp only [addedTypes, List.append_nil]; exact key trivial

theorem execAll_listed (lib : Lib) (depth : ℕ) (cs : List Call) : ∀ (st : VState) (l : List String), Listed st l →
    Listed (execAll lib depth st cs).2 (l ++ addedTypes (fun k => (st.heap k).componenttype) cs) := by
  induction cs with
  | nil => intro st l h; rw [addedTypes, List.append_nil]; exact h
  | cons c cs ih =>
    intro st l h
    have h1 := ih _ _ (exec_listed lib depth st c l h)
    have hty : (fun k => ((exec lib depth st c).2.heap k).componenttype) = fun k => (st.heap k).componenttype :=
      funext fun k => exec_type lib depth st c k
    rw [hty, List.append_assoc, ← addedTypes_cons] at h1
    exact h1

theorem listed_text {st : VState} {l : List String} (h : Listed st l) : VehicleText st.veh.name l st.veh.repr := by
  have hl := h.1
  by_cases h0 : l = []
  · left
    refine ⟨h0, ?_⟩
    subst h0
    have : ¬ st.veh.components.length > 0 := by rw [hl]; simp
    simp [Veh.repr, Veh.str, this, String.append_assoc]
  · right
    refine ⟨h0, st.veh.counts.keys, h.2.1, ?_⟩
    have hp : st.veh.components.length > 0 := by rw [hl]; exact List.length_pos_of_ne_nil h0
    have hc : st.veh.counts.map (fun e => toString e.2 ++ " " ++ e.1) = st.veh.counts.keys.map fun t => toString (l.count t) ++ " " ++ t := by
      conv_lhs => rw [h.2.2]
      rw [List.map_map]
      rfl
    unfold Veh.repr Veh.str
    rw [if_pos hp, if_pos hp, hc, hl]
    rw [show " components (" = " components" ++ " (" from rfl]
    simp only [String.append_assoc]

/-- C141: after any script on a new vehicle, whatever it generates, writes or gets wrong on the way, `repr(vehicle)` gives the name last chosen, the
number of components added and, for each of their types in the order of first use, how many there are. -/
theorem C141_vehicle (lib : Lib) (depth : ℕ) (st : VState) (hf : Fresh st.veh) (cs : List Call) :
    VehicleText ((lastName cs).getD st.veh.name) (addedTypes (fun k => (st.heap k).componenttype) cs) (execAll lib depth st cs).2.veh.repr := by
  obtain ⟨f1, f2, -, -⟩ := hf
  have h := execAll_listed lib depth cs st [] ⟨by rw [f1]; rfl, by rw [f2]; exact countsOf_nil⟩
  rw [List.nil_append] at h
  have ht := listed_text h
  rwa [(C131_asked lib depth cs st).2.2.1] at ht

/-- C141: `str(vehicle)` is the same without the list of types. -/
theorem C141_vehicle_str (lib : Lib) (depth : ℕ) (st : VState) (hf : Fresh st.veh) (cs : List Call) :
    let n := (addedTypes (fun k => (st.heap k).componenttype) cs).length
    (execAll lib depth st cs).2.veh.str = "Parameterised " ++ (lastName cs).getD st.veh.name ++
      (if n = 0 then "" else " with " ++ toString n ++ " components") := by
  obtain ⟨f1, f2, -, -⟩ := hf
  have h := (execAll_listed lib depth cs st [] ⟨by rw [f1]; rfl, by rw [f2]; exact countsOf_nil⟩).1
  rw [List.nil_append] at h
  have hn := (C131_asked lib depth cs st).2.2.1
  unfold Veh.str
  rw [h, hn]
  by_cases h0 : (addedTypes (fun k => (st.heap k).componenttype) cs).length = 0
  · simp [h0]
  · have hp : (addedTypes (fun k => (st.heap k).componenttype) cs).length > 0 := Nat.pos_of_ne_zero h0
    simp only [if_pos hp, if_neg h0]

/-- C141: the numbers in the text add up to the number of components. -/
theorem C141_sum (l ts : List String) (h : Firsts l ts) : (ts.map fun t => l.count t).sum = l.length := by
  have hp : ts.Perm l.dedup := (List.perm_ext_iff_of_nodup (firsts_nodup h) l.nodup_dedup).2 fun t => by rw [h.1, List.mem_dedup]
  rw [(hp.map _).sum_eq]
  exact List.sum_map_count_dedup_eq_length l

/-- C141: there is one such text. -/
theorem C141_unique (name : String) (l : List String) (s t : String) (hs : VehicleText name l s) (ht : VehicleText name l t) : s = t := by
  rcases hs with ⟨h0, rfl⟩ | ⟨h0, a, ha, rfl⟩ <;> rcases ht with ⟨h1, rfl⟩ | ⟨h1, b, hb, rfl⟩
  · rfl
  · exact absurd h0 h1
  · exact absurd h1 h0
  · rw [ha.unique hb]

end Veh

/-- C141: a component is described by its type and, if it has a non-empty name, by it; `str` gives just the name. -/
theorem C141_component (c : Comp) :
    (∀ n, c.name = some n → n ≠ "" → c.repr = c.componenttype ++ " component (tagged '" ++ n ++ "')" ∧ c.str = n ∧
      OgiveNose.repr c = "Ogive nose component (tagged '" ++ n ++ "')") ∧
    (c.name = none ∨ c.name = some "" → c.repr = c.componenttype ++ " component" ∧ c.str = c.componenttype ++ " component" ∧
      OgiveNose.repr c = "Ogive nose component") := by
  constructor
  · intro n hn h0
    have ht : Veh.truthy c.name = true := by rw [hn]; simp [Veh.truthy, h0]
    unfold Comp.repr Comp.str OgiveNose.repr
    rw [if_pos ht, if_pos ht, hn, show " component (tagged '" = " component" ++ " (tagged '" from rfl,
      show "Ogive nose component (tagged '" = "Ogive nose component" ++ " (tagged '" from rfl]
    simp only [String.append_assoc, Option.getD_some, and_self]
  · intro h
    have ht : ¬ Veh.truthy c.name = true := by rcases h with h | h <;> rw [h] <;> simp [Veh.truthy]
    unfold Comp.repr Comp.str OgiveNose.repr
    rw [if_neg ht, if_neg ht]
    simp

/-- C141: a component added under a non-empty name is described by that name, and so is it after work on the vehicle. -/
theorem C141_named (lib : Lib) (depth : ℕ) (st : VState) (id : ℕ) (o : AddOpts) (n : String) (hn : o.name = some n) (h0 : n ≠ "")
    (ht : VehicleType (st.heap id).componenttype) (cs : List Veh.Call) (hc : ∀ c ∈ cs, Computes c) :
    ((Veh.execAll lib depth (Veh.addComponent st id o).2 cs).2.heap id).repr = (st.heap id).componenttype ++ " component (tagged '" ++ n ++ "')" ∧
    ((Veh.execAll lib depth (Veh.addComponent st id o).2 cs).2.heap id).str = n := by
  have keep : ∀ (cs : List Veh.Call), (∀ c ∈ cs, Computes c) → ∀ st : VState,
      design ((Veh.execAll lib depth st cs).2.heap id) = design (st.heap id) := by
    intro cs
    induction cs with
    | nil => intro _ st; rfl
    | cons c cs ih =>
      intro hc st
      exact (ih (fun c h => hc c (by simp [h])) _).trans (Veh.C131_components lib depth st c (hc c (by simp)) id)
  have hd := keep cs hc (Veh.addComponent st id o).2
  have e : (Veh.addComponent st id o).2.heap id = Veh.withName (Veh.withOpts (st.heap id) st.veh.verbosity o) o := by
    unfold Veh.addComponent
    rw [if_pos ((mem_allowable _).2 ht)]
    exact upd_self _ _ _
  have e1 : ((Veh.addComponent st id o).2.heap id).name = some n := by rw [e]; simp [Veh.withName, hn]
  have e2 := addComponent_type st id o id
  have h1 : ((Veh.execAll lib depth (Veh.addComponent st id o).2 cs).2.heap id).name = some n := by
    have := congrArg (fun d : Comp => d.name) hd
    exact (show _ = _ from this).trans e1
  have h2 : ((Veh.execAll lib depth (Veh.addComponent st id o).2 cs).2.heap id).componenttype = (st.heap id).componenttype := by
    have := congrArg (fun d : Comp => d.componenttype) hd
    exact (show _ = _ from this).trans e2
  have := (C141_component ((Veh.execAll lib depth (Veh.addComponent st id o).2 cs).2.heap id)).1 n h1 h0
  rw [h2] at this
  exact ⟨this.1, this.2.1⟩

/-- A wing, two fins and a rejected sphere. -/
def textHeap : Heap := fun k => { componenttype := if k = 0 then "wing" else if k = 3 then "sphere" else "fin", gen := .into fun _ => ⟨[], [], [], none⟩ }

example (lib : Lib) (depth : ℕ) : (Veh.execAll lib depth ⟨textHeap, {}⟩ [.configure (some "X-1") 1, .add 1 {}, .generate, .add 0 {}, .add 3 {},
    .add 2 { name := some "left" }]).2.veh.repr = "Parameterised X-1 with 3 components (2 fin, 1 wing)" := by
  have h := Veh.C141_vehicle lib depth ⟨textHeap, {}⟩ ⟨rfl, rfl, rfl, rfl⟩ [.configure (some "X-1") 1, .add 1 {}, .generate, .add 0 {}, .add 3 {},
    .add 2 { name := some "left" }]
  have e : addedTypes (fun k => (textHeap k).componenttype) [.configure (some "X-1") 1, .add 1 {}, .generate, .add 0 {}, .add 3 {},
      .add 2 { name := some "left" }] = ["fin", "wing", "fin"] := by
    simp [addedTypes, textHeap, VehicleType]
  simp only [e] at h
  refine Veh.C141_unique _ _ _ _ h (.inr ⟨by simp, ["fin", "wing"], ⟨?_, ?_⟩, ?_⟩)
  · intro t
    simp only [List.mem_cons, List.not_mem_nil, or_false]
    exact ⟨fun h => h.elim .inl fun h => .inr (.inl h), fun h => h.elim .inl fun h => h.elim .inr .inl⟩
  · simp [List.idxOf, List.findIdx, List.findIdx.go]
  · rfl

/-- C141 fails for Coons patches given by corners: the text shows the corner `p10` in place of `p11` and `p01`, so that patches which differ in these
corners have the same text. -/
theorem C141_coons_violated : ∃ p00 p10 p11 p01 p11' p01' : V, p11 ≠ p11' ∧ p01 ≠ p01' ∧ ∀ (vec : V → String) (offset : String),
    CoonsPatch.reprCorners vec p00 p10 p11 p01 offset = CoonsPatch.reprCorners vec p00 p10 p11' p01' offset := by
  refine ⟨⟨0, 0, 0⟩, ⟨1, 0, 0⟩, ⟨1, 1, 0⟩, ⟨0, 1, 0⟩, ⟨1, 2, 0⟩, ⟨0, 2, 0⟩, ?_, ?_, fun _ _ => rfl⟩ <;>
    (intro h; have := congrArg Vec.y h; norm_num at this)

/-- C141 fails for cube patches: asking for the text of any raises `AttributeError`, as the attribute `r` it shows does not exist. -/
theorem C141_cube_violated (a centre face : String) : CubePatch.repr a centre face = .error .attr := rfl

end HV
