import Verif.Model.Py

/-!
# `components/component.py:160-172`: `__copy__` and `__deepcopy__` on the object graph

Objects live at addresses.  Values that `copy.deepcopy` returns unchanged (numbers, strings, functions, classes) are
`imm`.  Instances, dictionaries and lists are objects with named fields (an attribute name, a dictionary key, a list
index).  The library's `deepcopy` of dictionaries, lists and instances has the same shape as `__deepcopy__`: record the new
object in the memo, then copy the fields one after the other.  Simplified: tuples are treated like lists.
-/

namespace HV

/-- A Python value. -/
inductive PVal
  | imm (token : ℕ)
  | ref (a : ℕ)

/-- An object: its class and its fields in order. -/
structure PObj where
  cls : String
  fields : List (String × PVal)

/-- The memory: addresses below `next` are in use. -/
structure PHeap where
  next : ℕ
  obj : ℕ → PObj

/-- Allocation of a new object at address `next` (`cls.__new__(cls)`, `component.py:167-168`). -/
def PHeap.alloc (h : PHeap) (o : PObj) : PHeap := ⟨h.next + 1, fun a => if a = h.next then o else h.obj a⟩

/-- Assigning the fields of an object. -/
def PHeap.write (h : PHeap) (a : ℕ) (fields : List (String × PVal)) : PHeap :=
  { h with obj := fun x => if x = a then { h.obj a with fields := fields } else h.obj x }

/-- Memory and memo during a deep copy. -/
structure CopySt where
  heap : PHeap
  memo : ℕ → Option ℕ

/-- `copy.deepcopy(v, memo)`, with `component.py:166-172` for the objects: a memoised object is returned, otherwise a new
object is allocated and recorded, and the fields are copied in order.  `fuel` bounds the recursion depth. -/
def deepcopy : ℕ → CopySt → PVal → Option (PVal × CopySt)
  | _, st, .imm t => some (.imm t, st)
  | 0, st, .ref a => (st.memo a).map fun b => (.ref b, st)
  | fuel + 1, st, .ref a =>
    match st.memo a with
    | some b => some (.ref b, st)
    | none =>
      let b := st.heap.next
      let st1 : CopySt := ⟨st.heap.alloc ⟨(st.heap.obj a).cls, []⟩, fun x => if x = a then some b else st.memo x⟩
      let st2 := (st.heap.obj a).fields.foldlM (fun (s : CopySt) (f : String × PVal) =>
        match deepcopy fuel s f.2 with
        | none => none
        | some (v', s') => some { s' with heap := s'.heap.write b ((s'.heap.obj b).fields ++ [(f.1, v')]) }) st1
      st2.map fun s => (.ref b, s)

/-- `component.py:160-164` `__copy__`: a new object with the same fields. -/
def shallowCopy (h : PHeap) (a : ℕ) : PVal × PHeap := (.ref h.next, h.alloc (h.obj a))

end HV
