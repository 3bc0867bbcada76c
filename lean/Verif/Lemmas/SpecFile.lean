import Verif.Lemmas.Header
import Verif.Props.Sections
import Verif.Py.NumLemmas
/-
What reading a file does to the identity of headers and scans.
-/
namespace S2N
open Py

/-- the attributes of a header or scan that interpretation never changes -/
structure Ident where
  kind : Kind
  raw : Str
  fileName : Str
  S : Str
  scanNum : Str
  scanCmd : Str
  hdrIdx : Nat
  deriving DecidableEq, Repr

def Obj.ident (x : Obj) : Ident := ⟨x.kind, x.raw, x.fileName, x.S, x.scanNum, x.scanCmd, x.hdrIdx⟩

namespace Props
open Spec

theorem po_ident (env : Env) (k : HKey) (text : Str) (x : Obj) :
    (procObj env k text x).1.ident = x.ident := by
  simp only [Obj.ident, po_kind, po_raw, po_fileName, po_S, po_scanNum, po_scanCmd, po_hdrIdx]

theorem ps_ident (env : Env) (k : HKey) (text : Str) (c : ScanCtx) :
    (procScan env k text c).1.scan.ident = c.scan.ident := by
  simp only [Obj.ident, ps_kind, ps_raw, ps_fileName, ps_S, ps_scanNum, ps_scanCmd, ps_hdrIdx]

theorem pp_ident (env : Env) (f : PostFn) (c : ScanCtx) :
    (runPost env f c).1.scan.ident = c.scan.ident := by
  simp only [Obj.ident, pp_kind, pp_raw, pp_fileName, pp_S, pp_scanNum, pp_scanCmd, pp_hdrIdx]

theorem dateHdr_hdr_ident (env : Env) (c : ScanCtx) :
    (dateHdr env c).1.hdr.ident = c.hdr.ident := by
  unfold dateHdr
  simp only [Res.ok, Res.raise, Res.eval]
  repeat' split
  all_goals rfl

theorem ps_hdr_ident (env : Env) (k : HKey) (text : Str) (c : ScanCtx) :
    (procScan env k text c).1.hdr.ident = c.hdr.ident := by
  by_cases hO : k = .O
  · subst hO
    exact po_ident env .O text c.hdr
  by_cases hD : k = .D
  · subst hD
    simp only [procScan, Res.andThen]
    split
    · rw [dateHdr_hdr_ident]; rfl
    · rfl
  rw [ps_hdr env k text c hO hD]

/-- identity of a scan and of its header -/
def ctxIdent (c : ScanCtx) : Ident × Ident := (c.scan.ident, c.hdr.ident)

section
variable [UniDB]

theorem scanLine_ident (env : Env) (reg : List HKey) (line : Str) (c : ScanCtx) :
    ctxIdent (scanLine env reg line c).1 = ctxIdent c := by
  unfold scanLine
  split
  · rfl
  · cases getControlKey reg (lstrip line) with
    | error e => rfl
    | ok o =>
      simp only [Res.eval_ok]
      cases o with
      | none => simp only [ctxIdent, ps_ident, ps_hdr_ident]
      | some k =>
        cases k <;> first | rfl | simp only [ctxIdent, ps_ident, ps_hdr_ident]

theorem andThen_pres {σ β : Type} (π : σ → β) (r : Res σ) (f : σ → Res σ) (b : β)
    (h1 : π r.1 = b) (h2 : ∀ s, π s = b → π (f s).1 = b) : π (r.andThen f).1 = b := by
  unfold Res.andThen
  split
  · exact h2 _ h1
  · exact h1

theorem interpretScan_ident (env : Env) (reg : List HKey) (c : ScanCtx) :
    ctxIdent (interpretScan env reg c).1 = ctxIdent c := by
  unfold interpretScan
  split
  · rfl
  · apply andThen_pres ctxIdent
    · rw [forEach_pres _ ctxIdent _ (fun a _ s => scanLine_ident env reg a s)]; rfl
    · intro s hs
      apply andThen_pres ctxIdent
      · rw [forEach_pres _ ctxIdent _ (fun a _ s => by simp only [ctxIdent, pp_ident, pp_hdr]), hs]
      · intro s hs; rw [← hs]; rfl

theorem readAttr_ident (env : Env) (reg : List HKey) (a : Str) (c : ScanCtx) :
    ctxIdent (readAttr env reg a c).1 = ctxIdent c := by
  unfold readAttr
  split
  · exact interpretScan_ident env reg c
  · rfl

/-- identities of a header being interpreted and of the latest scan -/
def hctxIdent (c : HCtx) : Ident × Option (Ident × Ident) := (c.hdr.ident, c.latest.map ctxIdent)

theorem procP_ident (text : Str) (x : Obj) : (procP text x).1.ident = x.ident := by
  unfold procP
  simp only [Res.ok, Res.raise, Res.eval]
  repeat' split
  all_goals rfl

theorem procHdr_ident (env : Env) (reg : List HKey) (k : HKey) (text : Str) (c : HCtx) :
    hctxIdent (procHdr env reg k text c).1 = hctxIdent c := by
  by_cases hk : k = .P
  · subst hk
    unfold procHdr
    cases hl : c.latest with
    | none => rfl
    | some s =>
      simp only [hctxIdent, Option.map_some, hl, Prod.mk.injEq, Option.some.injEq, true_and]
      apply andThen_pres ctxIdent
      · exact readAttr_ident env reg _ s
      · intro s hs
        rw [← hs]
        simp only [onScan, ctxIdent, procP_ident]
  · have : procHdr env reg k text c = c.onHdr (procObj env k text) := by
      cases k <;> first | rfl | exact absurd rfl hk
    rw [this]
    simp only [HCtx.onHdr, hctxIdent, po_ident]

theorem hdrLine_ident (env : Env) (reg : List HKey) (line : Str) (c : HCtx) :
    hctxIdent (hdrLine env reg line c).1 = hctxIdent c := by
  unfold hdrLine
  split
  · rfl
  · cases getControlKey reg line with
    | error e => rfl
    | ok o =>
      simp only [Res.eval_ok]
      cases o with
      | none => exact procHdr_ident ..
      | some k => cases k <;> first | rfl | exact procHdr_ident ..

theorem counterXref_ident (x : Obj) : (counterXref x).1.ident = x.ident := by
  unfold counterXref
  simp only [Res.ok, Res.raise, Res.eval]
  repeat' split
  all_goals rfl

theorem positionerXref_ident (x : Obj) : (positionerXref x).1.ident = x.ident := by
  unfold positionerXref
  simp only [Res.ok, Res.raise, Res.eval]
  repeat' split
  all_goals rfl

theorem postUXML_ident (env : Env) (x : Obj) : (postUXML env x).1.ident = x.ident := by
  unfold postUXML
  simp only [Res.ok, Res.raise, Res.eval, Obj.addH5]
  repeat' split
  all_goals rfl

theorem runPostHdr_ident (env : Env) (f : PostFn) (x : Obj) :
    (runPostHdr env f x).1.ident = x.ident := by
  cases f <;> simp only [runPostHdr]
  case counterJ => exact andThen_pres Obj.ident _ _ _ (counterXref_ident x) (fun s hs => hs)
  case counterj => exact andThen_pres Obj.ident _ _ _ (counterXref_ident x) (fun s hs => hs)
  case positionerXref => exact andThen_pres Obj.ident _ _ _ (positionerXref_ident x) (fun s hs => hs)
  case uxml => exact postUXML_ident env x
  all_goals rfl

theorem interpretHeader_ident (env : Env) (reg : List HKey) (c : HCtx) :
    hctxIdent (interpretHeader env reg c).1 = hctxIdent c := by
  unfold interpretHeader
  apply andThen_pres hctxIdent
  · exact forEach_pres _ hctxIdent _ (fun a _ s => hdrLine_ident env reg a s) c
  · intro s hs
    rw [forEach_pres _ hctxIdent _ (fun f _ s => by
      simp only [HCtx.onHdr, hctxIdent, runPostHdr_ident]), hs]

/-! ## The identities in a file object -/

/-- what reading does to a file object, up to what interpretation changes -/
structure Shape where
  fileName : Str
  headers : List Ident
  scans : List (Str × Ident)
  lastScan : Option Ref
  deriving DecidableEq

def shape (s : Sdf) : Shape :=
  ⟨s.fileName, s.headers.map Obj.ident, s.scans.map (fun p => (p.1, p.2.ident)), s.lastScan⟩

theorem map_set_ident {α β : Type} (f : α → β) (l : List α) (i : Nat) (a d : α)
    (h : f a = f (l.getD i d)) : (l.set i a).map f = l.map f := by
  rw [List.map_set]
  by_cases hi : i < l.length
  · apply List.ext_getElem?
    intro j
    rw [List.getElem?_set]
    by_cases hij : i = j
    · subst hij
      simp [hi, h, List.getD_eq_getElem?_getD]
    · simp [hij]
  · rw [List.set_eq_of_length_le (by simpa using hi)]

theorem putLatest_shape (s : Sdf) (name : Str) (x : Obj) (c : ScanCtx)
    (hl : s.latest = some (name, x)) (hc : ctxIdent c = (x.ident, (s.headerOf x).ident)) :
    shape (s.putLatest name c) = shape s := by
  simp only [ctxIdent, Prod.mk.injEq] at hc
  have hidx : c.scan.hdrIdx = x.hdrIdx := congrArg Ident.hdrIdx hc.1
  simp only [shape, Sdf.putLatest, Shape.mk.injEq, true_and, and_true]
  constructor
  · exact map_set_ident _ _ _ _ _ (by rw [hc.2, Sdf.headerOf, hidx])
  · have : s.scans = s.scans.dropLast ++ [(name, x)] := by
      unfold Sdf.latest at hl
      exact (List.dropLast_append_getLast? _ hl).symm
    conv => rhs; rw [this]
    simp [hc.1]

theorem dateLatest_shape (env : Env) (s : Sdf) : shape (s.dateLatest env).1 = shape s := by
  unfold Sdf.dateLatest
  cases hl : s.latest with
  | none => rfl
  | some p =>
    obtain ⟨name, x⟩ := p
    simp only
    cases Sdf.findDate (splitlines x.raw).tail with
    | error e => rfl
    | ok d =>
      cases d with
      | none => rfl
      | some line =>
        simp only [Res.eval_ok]
        apply putLatest_shape s name x _ hl
        simp only [ctxIdent, ps_ident, ps_hdr_ident]

/-- effect of an #E section on the identities -/
theorem procE_shape (env : Env) (reg : List HKey) (buf : Str) (s : Sdf)
    (h : (s.procE env reg buf).2 = none) :
    shape (s.procE env reg buf).1 =
      if s.headers.any (fun h => strip h.raw == strip buf) then shape s
      else { shape s with headers := (shape s).headers ++ [(Obj.newHeader s.fileName buf).ident] } := by
  unfold Sdf.procE at h ⊢
  split
  · rfl
  · rename_i hany
    rw [if_neg hany] at h
    cases hfl : Sdf.firstLine buf with
    | error e => rw [hfl] at h; simp at h
    | ok l =>
      rw [hfl] at h
      simp only [Res.eval_ok] at h ⊢
      cases he : Sdf.epochOf (strip l) with
      | error e => rw [he] at h; simp at h
      | ok e =>
        rw [he] at h
        simp only [Res.eval_ok] at h ⊢
        generalize hx0 : ({ Obj.newHeader s.fileName buf with epoch := some e } : Obj) = x0 at h ⊢
        have hxi : x0.ident = (Obj.newHeader s.fileName buf).ident := by rw [← hx0]; rfl
        have hset : ∀ (s1 : Sdf) (y : Obj), (s1.headers.map Obj.ident) =
            s.headers.map Obj.ident ++ [x0.ident] → y.ident = x0.ident →
            (s1.headers.set s.headers.length y).map Obj.ident =
              s.headers.map Obj.ident ++ [x0.ident] := by
          intro s1 y h1 h2
          rw [List.map_set, h1, h2]
          have hlen : s.headers.length = (s.headers.map Obj.ident).length := by simp
          rw [hlen, List.set_append_right _ _ (Nat.le_refl _)]
          simp
        cases hl : (Sdf.latest { s with headers := s.headers ++ [x0] }) with
        | none =>
          simp only
          have hid := interpretHeader_ident env reg ⟨x0, none⟩
          simp only [hctxIdent, Prod.mk.injEq] at hid
          simp only [shape, Shape.mk.injEq, true_and, and_true]
          rw [hset { s with headers := s.headers ++ [x0] } _ (by simp) hid.1, hxi]
        | some p =>
          obtain ⟨name, x⟩ := p
          simp only
          have hid := interpretHeader_ident env reg
            ⟨x0, some ⟨x, Sdf.headerOf { s with headers := s.headers ++ [x0] } x⟩⟩
          generalize interpretHeader env reg
            ⟨x0, some ⟨x, Sdf.headerOf { s with headers := s.headers ++ [x0] } x⟩⟩ = r at hid ⊢
          simp only [hctxIdent, Prod.mk.injEq, Option.map_some] at hid
          cases hr : r.1.latest with
          | none => rw [hr] at hid; simp at hid
          | some c =>
            rw [hr] at hid
            simp only [Option.map_some, Option.some.injEq] at hid
            have hp := putLatest_shape { s with headers := s.headers ++ [x0] } name x c hl hid.2
            dsimp only
            generalize hs2 : Sdf.putLatest { s with headers := s.headers ++ [x0] } name c = s2 at hp ⊢
            simp only [shape, Shape.mk.injEq, List.map_append, List.map_cons, List.map_nil] at hp
            obtain ⟨h1, h2, h3, h4⟩ := hp
            simp only [shape, Shape.mk.injEq]
            rw [hset s2 _ h2 hid.1, hxi]
            exact ⟨h1, rfl, h3, h4⟩

end
end Props
end S2N
