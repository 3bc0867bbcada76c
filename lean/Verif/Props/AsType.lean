import Verif.Model.AsType
import Verif.Props.Eznx
/-
C66 with `astype=float`.
-/
namespace S2N.Props
open S2N S2N.Spec Py H5 Eznx

/-- the number as a float -/
def theFloat : Num → PyFloat
  | .flt x => x
  | .int i => .fin i

theorem toFlt_theFloat (n : Num) : n.toFlt = theFloat n := by cases n <;> rfl

theorem sameType_floats (l : List Num) :
    (sameType l).map (fun n => Num.flt n.toFlt) = l.map (fun n => Num.flt (theFloat n)) := by
  unfold sameType
  split
  · simp [toFlt_theFloat]
  · rw [List.map_map]
    exact List.map_congr_left (fun n _ => by cases n <;> rfl)

theorem floats_ok {l : List Str} {xs : List PyFloat} (h : l.map parseFloat = xs.map some) :
    floats l = .ok (xs.map .flt) := by
  induction l generalizing xs with
  | nil => cases xs with
    | nil => rfl
    | cons x xs => simp at h
  | cons w l ih =>
    cases xs with
    | nil => simp at h
    | cons x xs =>
      simp only [List.map_cons, List.cons.injEq] at h
      simp [floats, h.1, ih h.2]

theorem floats_bad {l : List Str} (h : ∃ w ∈ l, parseFloat w = none) :
    floats l = .error .ValueError := by
  induction l with
  | nil => simp at h
  | cons w l ih =>
    rw [floats]
    cases hp : parseFloat w with
    | none => rfl
    | some x =>
      obtain ⟨v, hv, hn⟩ := h
      rcases List.mem_cons.1 hv with rfl | hv
      · rw [hp] at hn; cases hn
      · simp [ih ⟨v, hv, hn⟩]

theorem read_float {s s' : H5} {h : HRef} {n : Str} {f : Except PyErr Field}
    (hr : readNexusField h n s = (s', f)) :
    readNexusFieldFloat h n s = (s', f.bind asFloat) := by
  unfold readNexusFieldFloat HM.andThen
  rw [hr]
  cases f <;> rfl

/-- C66: read with `astype=float`, numbers that were written (a single one, a list of any integers
and floats, as list or array) come back as the floats of the same values, in their order; texts that
are numbers come back as these, and ValueError is raised if one of the texts is no number; a dataset
that does not exist is None. -/
theorem C66_astype_float (s : H5) (h : HRef) (ch : Dict Nat) (a : Dict AVal) (n : Str)
    (hs : s[h.id]? = some (.group ch a)) (hw : ch.keys.Nodup) (hn : Single n) (attr : Dict AVal) :
    (∀ x, ∃ s' r, writeDataset h n (.num x) attr s = (s', .ok r) ∧
      readNexusFieldFloat h n s' = (s', .ok (.num (.flt (theFloat x))))) ∧
    (∀ x, ∃ s' r, writeDataset h n (.nums [x]) attr s = (s', .ok r) ∧
      readNexusFieldFloat h n s' = (s', .ok (.num (.flt (theFloat x))))) ∧
    (∀ l, 2 ≤ l.length → ∃ s' r, writeDataset h n (.nums l) attr s = (s', .ok r) ∧
      readNexusFieldFloat h n s' = (s', .ok (.nums (l.map fun x => .flt (theFloat x))))) ∧
    (∀ l (xs : List PyFloat), 2 ≤ l.length → (l.map ascii).map parseFloat = xs.map some →
      ∃ s' r, writeDataset h n (.strs l) attr s = (s', .ok r) ∧
        readNexusFieldFloat h n s' = (s', .ok (.nums (xs.map .flt)))) ∧
    (∀ l, 1 ≤ l.length → (∃ w ∈ l, parseFloat (ascii w) = none) →
      ∃ s' r, writeDataset h n (.strs l) attr s = (s', .ok r) ∧
        readNexusFieldFloat h n s' = (s', .error .ValueError)) ∧
    (ch.has n = false → readNexusFieldFloat h n s = (s, .ok .none)) := by
  have key := fun d v hv => (C66_round_trip s h ch a n d hs hw hn attr).1 v hv
  refine ⟨?_, ?_, ?_, ?_, ?_, ?_⟩
  · intro x
    obtain ⟨s', r, h1, h2⟩ := key (.num x) _ rfl
    exact ⟨s', r, h1, by rw [read_float h2]; simp [readBack, Except.bind, asFloat, toFlt_theFloat]⟩
  · intro x
    obtain ⟨s', r, h1, h2⟩ := key (.nums [x]) _ rfl
    exact ⟨s', r, h1, by rw [read_float h2]; simp [readBack, Except.bind, asFloat, toFlt_theFloat]⟩
  · intro l hl
    obtain ⟨s', r, h1, h2⟩ := key (.nums l) _ rfl
    refine ⟨s', r, h1, ?_⟩
    rw [read_float h2]
    rcases l with _ | ⟨x, _ | ⟨y, l⟩⟩
    · simp at hl
    · simp at hl
    · simp only [readBack, Except.bind, asFloat, sameType_floats]
  · intro l xs hl hp
    rcases l with _ | ⟨x, _ | ⟨y, l⟩⟩
    · simp at hl
    · simp at hl
    · obtain ⟨s', r, h1, h2⟩ := key (.strs (x :: y :: l)) _ rfl
      refine ⟨s', r, h1, ?_⟩
      rw [read_float h2]
      simp only [readBack, Except.bind, asFloat, floats_ok hp]
  · intro l hl hp
    rcases l with _ | ⟨x, _ | ⟨y, l⟩⟩
    · simp at hl
    · obtain ⟨s', r, h1, h2⟩ := key (.strs [x]) _ rfl
      refine ⟨s', r, h1, ?_⟩
      rw [read_float h2]
      have : parseFloat (ascii x) = none := by simpa using hp
      simp only [readBack, Except.bind, asFloat, this]
    · obtain ⟨s', r, h1, h2⟩ := key (.strs (x :: y :: l)) _ rfl
      refine ⟨s', r, h1, ?_⟩
      rw [read_float h2]
      have : ∃ w ∈ (x :: y :: l).map ascii, parseFloat w = none := by
        obtain ⟨w, h1, h2⟩ := hp
        exact ⟨_, List.mem_map_of_mem h1, h2⟩
      simp only [readBack, Except.bind, asFloat, floats_bad this]
  · intro hf
    have : readNexusField h n s = (s, .ok .none) := by
      unfold readNexusField
      rw [HM.bind_ok (contains_eq hs hn), hf]
      rfl
    rw [read_float this]
    rfl

/-- C66: a single text that is a number is read with `astype=float` as that number. -/
theorem C66_astype_text (s : H5) (h : HRef) (ch : Dict Nat) (a : Dict AVal) (n w : Str) (x : PyFloat)
    (hs : s[h.id]? = some (.group ch a)) (hw : ch.keys.Nodup) (hn : Single n) (attr : Dict AVal)
    (hx : parseFloat (ascii w) = some x) (d : PData) (hd : d = .str w ∨ d = .strs [w]) :
    ∃ s' r, writeDataset h n d attr s = (s', .ok r) ∧
      readNexusFieldFloat h n s' = (s', .ok (.num (.flt x))) := by
  rcases hd with rfl | rfl
  · obtain ⟨s', r, h1, h2⟩ := (C66_round_trip s h ch a n (.str w) hs hw hn attr).1 _ rfl
    exact ⟨s', r, h1, by rw [read_float h2]; simp [readBack, Except.bind, asFloat, hx]⟩
  · obtain ⟨s', r, h1, h2⟩ := (C66_round_trip s h ch a n (.strs [w]) hs hw hn attr).1 _ rfl
    exact ⟨s', r, h1, by rw [read_float h2]; simp [readBack, Except.bind, asFloat, hx]⟩

/-- C66: the cases are there: integers and floats mixed, texts that are numbers and one that is not. -/
theorem C66_astype_nonvacuous :
    linked[root.id]? = some (.group [(p!"x", 1), (p!"y", 1)] []) ∧ Single p!"x" ∧
    (let t := (writeDataset root p!"x" (.nums [.int 1, .flt (.fin (5/2))]) [] linked).1
     readNexusFieldFloat root p!"x" t = (t, .ok (.nums [.flt (.fin 1), .flt (.fin (5/2))]))) ∧
    (([p!"1e3", p!"2"].map ascii).map parseFloat = [PyFloat.fin 1000, .fin 2].map some) ∧
    parseFloat (ascii p!"abc") = none :=
  ⟨rfl, Plain.single (by decide), by decide +kernel, by decide +kernel, by decide +kernel⟩

end S2N.Props
