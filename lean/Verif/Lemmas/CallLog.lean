import Verif.Importer.CallLogWrappers
import Verif.Spec.Signatures
import Verif.Lemmas.LogBuffer

/-!
# The messages of the wrapper functions: symbolic execution

The code of a wrapper function is executed with the names of its parameters instead of values (`toksOf`). If the result is the message for its signature
(`messageToks`), then the code produces the message for all arguments that fit.
-/

namespace Verif.Importer.CallLog
open Verif Importer Spec Spec.CallLog

/-- A part of a message: a character, a converted value or the elements of an array. -/
inductive Tok
  | chr (c : Char)
  | val (k : Conv) (r : Ref)
  | arr (v n : Name) (s : Option Name) (t : ElemType)
  deriving DecidableEq

/-- The parts that a format with its arguments gives. -/
def toksOfPieces : List Piece → List Ref → Option (List Tok)
  | [], _ => some []
  | .chr c :: ps, rs => (toksOfPieces ps rs).map (.chr c :: ·)
  | .conv _ :: _, [] => none
  | .conv k :: ps, r :: rs => (toksOfPieces ps rs).map (.val k r :: ·)

/-- The parts that the code gives. -/
def toksOf : List Code → Option (List Tok)
  | [] => some []
  | .text f rs :: cs =>
    match pieces f with
    | none => none
    | some ps => match toksOfPieces ps rs, toksOf cs with
      | some a, some b => some (a ++ b)
      | _, _ => none
  | .array v n s t :: cs => (toksOf cs).map (.arr v n s t :: ·)

variable {F : Type} {C : CLib F} {args : Args F}

/-- The text of a part, if it is defined and free of zero bytes. -/
inductive TokText (C : CLib F) (args : Args F) : Tok → List UInt8 → Prop
  | chr {c} : byte c ≠ 0 → TokText C args (.chr c) [byte c]
  | val {k r v t} : evalRef args r = .ret v → convert C k v = .ret t → 0 ∉ t → TokText C args (.val k r) t
  | arr {v n s t es} : readArray C args v n s t = .ret es → LogOp.Proper (.array es) → TokText C args (.arr v n s t) (arrayText es)

inductive ToksText (C : CLib F) (args : Args F) : List Tok → List UInt8 → Prop
  | nil : ToksText C args [] []
  | cons {k ks t ts} : TokText C args k t → ToksText C args ks ts → ToksText C args (k :: ks) (t ++ ts)

theorem ToksText.append {ks ks' : List Tok} {t t' : List UInt8} (h : ToksText C args ks t) (h' : ToksText C args ks' t') : ToksText C args (ks ++ ks') (t ++ t') := by
  induction h with
  | nil => exact h'
  | cons a _ ih => rw [List.cons_append, List.append_assoc]; exact .cons a ih

theorem ToksText.split {ks ks' : List Tok} {t : List UInt8} (h : ToksText C args (ks ++ ks') t) : ∃ a b, t = a ++ b ∧ ToksText C args ks a ∧ ToksText C args ks' b := by
  induction ks generalizing t with
  | nil => exact ⟨[], t, rfl, .nil, h⟩
  | cons k ks ih =>
    cases h with
    | cons x h =>
      obtain ⟨a, b, rfl, ha, hb⟩ := ih h
      exact ⟨_, b, (List.append_assoc ..).symm, .cons x ha, hb⟩

theorem printf_of_toks : ∀ {ps : List Piece} {rs : List Ref} {ks : List Tok} {t : List UInt8}, toksOfPieces ps rs = some ks → ToksText C args ks t →
    printf C args ps rs = .ret t ∧ 0 ∉ t
  | [], rs, ks, t, h, ht => by cases h; cases ht; exact ⟨rfl, by simp⟩
  | .chr c :: ps, rs, ks, t, h, ht => by
    rw [toksOfPieces, Option.map_eq_some_iff] at h
    obtain ⟨ks, h, rfl⟩ := h
    cases ht with | cons a ht =>
    cases a with | chr hc =>
    obtain ⟨e, h0⟩ := printf_of_toks h ht
    rw [printf, e]
    exact ⟨rfl, by simp [h0, Ne.symm hc]⟩
  | .conv _ :: ps, [], ks, t, h, _ => by cases h
  | .conv k :: ps, r :: rs, ks, t, h, ht => by
    rw [toksOfPieces, Option.map_eq_some_iff] at h
    obtain ⟨ks, h, rfl⟩ := h
    cases ht with | cons a ht =>
    cases a with | val h1 h2 h3 =>
    obtain ⟨e, h0⟩ := printf_of_toks h ht
    rw [printf, h1, Outcome.ret_bind, h2, Outcome.ret_bind, e]
    exact ⟨rfl, by simp [h0, h3]⟩

/-- The code does what its symbolic execution says. -/
theorem logOps_of_toks : ∀ {cs : List Code} {ks : List Tok} {t : List UInt8}, toksOf cs = some ks → ToksText C args ks t →
    ∃ os, logOps C args cs = .ret os ∧ (∀ op ∈ os, LogOp.Proper op) ∧ ∀ sofar, logText sofar os = sofar ++ t
  | [], ks, t, h, ht => by cases h; cases ht; exact ⟨[], rfl, by simp, fun _ => by simp [logText]⟩
  | .text f rs :: cs, ks, t, h, ht => by
    rw [toksOf] at h
    split at h
    · cases h
    · next ps hp =>
      split at h
      · next ka kb ha hb =>
        cases h
        obtain ⟨x, y, rfl, hx, hy⟩ := ht.split
        obtain ⟨e, h0⟩ := printf_of_toks ha hx
        obtain ⟨os, e', hos, hl⟩ := logOps_of_toks hb hy
        refine ⟨.text x :: os, ?_, ?_, fun sofar => ?_⟩
        · rw [logOps, hp]; simp only [e, Outcome.ret_bind, e']
        · intro op hop
          rcases List.mem_cons.1 hop with rfl | hop
          · exact h0
          · exact hos op hop
        · rw [logText, hl, List.append_assoc]
      · cases h
  | .array v n s ty :: cs, ks, t, h, ht => by
    rw [toksOf, Option.map_eq_some_iff] at h
    obtain ⟨ks, h, rfl⟩ := h
    cases ht with | cons a ht =>
    cases a with | @arr _ _ _ _ es h1 h2 =>
    obtain ⟨os, e', hos, hl⟩ := logOps_of_toks h ht
    refine ⟨.array es :: os, ?_, ?_, fun sofar => ?_⟩
    · rw [logOps, h1, Outcome.ret_bind, e', Outcome.ret_bind]
    · intro op hop
      rcases List.mem_cons.1 hop with rfl | hop
      · exact h2
      · exact hos op hop
    · rw [logText, hl, List.append_assoc]

/-- How an argument is shown: by its value (elements), or by its address. -/
inductive Shape
  | value | address
  deriving DecidableEq

/-- The parts for a value. -/
def scalarToks (r : Ref) : ScalarType → List Tok
  | .int => [.val .d r]
  | .uint => [.val .u r]
  | .size => [.val .zu r]
  | .double => [.val .g16 r]
  | .string => [.chr '"', .val .s r, .chr '"']
  | .pointer => [.chr '0', .chr 'x', .val .p r]

def nameToks (n : Name) : List Tok := n.map .chr

/-- The parts for the members of a structure. -/
def fieldsToks (n : Name) : List (Name × ScalarType) → List Tok
  | [] => []
  | (f, t) :: ts => nameToks f ++ [.chr '='] ++ scalarToks (.field n f) t ++ (if ts = [] then [] else [.chr ',', .chr ' '] ++ fieldsToks n ts)

/-- The parts for an argument. -/
def argToks (n : Name) : ParamType → Shape → List Tok
  | .scalar t, _ => scalarToks (.var n) t
  | .out t, .value => scalarToks (.deref n) t
  | .array t c s, .value => [.chr '{', .arr n c s t, .chr '}']
  | .struct fs, _ => [.chr '{'] ++ fieldsToks n fs ++ [.chr '}']
  | _, .address => [.chr '0', .chr 'x', .val .p (.var n)]

/-- The parts for the arguments. -/
def paramsToks : List Param → List Shape → List Tok
  | p :: ps, s :: ss =>
    nameToks p.name ++ [.chr '='] ++ argToks p.name p.type s ++ (if ps = [] then [] else [.chr ',', .chr ' '] ++ paramsToks ps ss)
  | _, _ => []

def messageToks (name : Name) (ps : List Param) (ss : List Shape) : List Tok := nameToks name ++ [.chr '('] ++ paramsToks ps ss ++ [.chr ')']

theorem digits_number (i : Int) : digits i = numberText i := by
  cases i with
  | ofNat n => simp [numberText, digits, OutputFile.decimal, Int.repr, Nat.repr]
  | negSucc n => simp [numberText, digits, OutputFile.decimal, Int.repr, Nat.repr, String.toList_append]

theorem byte_digits_ne (i : Int) : 0 ∉ digits i := by
  have key : ∀ {c : Char}, c.isDigit → byte c ≠ 0 := by
    intro c hc h
    have h1 : 48 ≤ c.toNat ∧ c.toNat ≤ 57 := by
      simp only [Char.isDigit, Bool.and_eq_true, decide_eq_true_eq] at hc
      exact ⟨hc.1, hc.2⟩
    have h2 := congrArg UInt8.toNat h
    simp only [byte, Nat.toUInt8, UInt8.toNat_ofNat', UInt8.toNat_zero] at h2
    have : c.toNat % 256 = c.toNat := Nat.mod_eq_of_lt (by omega)
    omega
  intro h
  simp only [digits, List.mem_map] at h
  obtain ⟨c, hc, h⟩ := h
  cases i with
  | ofNat n => exact key (Nat.isDigit_of_mem_toDigits (by decide) (by decide) hc) h
  | negSucc n =>
    rcases List.mem_cons.1 hc with rfl | hc
    · exact absurd h (by decide)
    · exact key (Nat.isDigit_of_mem_toDigits (by decide) (by decide) hc) h

theorem toksText_scalar (hC : Printable C) {r : Ref} {t : ScalarType} {v : Val F} (hr : evalRef args r = .ret v) (h : HasType t v) :
    ToksText C args (scalarToks r t) (valueText C v) := by
  have e0 : byte '0' ≠ 0 := by decide
  have ex : byte 'x' ≠ 0 := by decide
  have eq : byte '"' ≠ 0 := by decide
  cases t <;> cases v <;> try exact absurd h id
  case int.int i => have := ToksText.cons (.val hr (k := .d) rfl (byte_digits_ne i)) .nil (C := C); rwa [List.append_nil, digits_number] at this
  case uint.uint i => have := ToksText.cons (.val hr (k := .u) rfl (byte_digits_ne i)) .nil (C := C); rwa [List.append_nil, digits_number] at this
  case size.size i => have := ToksText.cons (.val hr (k := .zu) rfl (byte_digits_ne i)) .nil (C := C); rwa [List.append_nil, digits_number] at this
  case double.double x => have := ToksText.cons (.val hr (k := .g16) rfl (hC.g16 x)) .nil (C := C); rwa [List.append_nil] at this
  case pointer.pointer a =>
    have := ToksText.cons (.chr e0) (.cons (.chr ex) (.cons (.val hr (k := .p) rfl (hC.p a)) .nil (C := C)))
    rwa [List.append_nil] at this
  case string.string s =>
    cases s with
    | none => exact absurd h id
    | some l =>
      have := ToksText.cons (.chr eq) (.cons (.val hr (k := .s) rfl h) (.cons (.chr eq) .nil (C := C)))
      exact this

theorem arrayText_eq : ∀ {es : List Elem}, arrayText es = commaSeparated (es.map elemText)
  | [] => rfl
  | [e] => rfl
  | e :: e' :: es => by
    rw [arrayText, arrayText_eq]
    · rfl
    · simp

theorem element_eq (hC : Printable C) {t : ElemType} {d : Datum F} (ht : t ≠ .other) (h : HasElemType t d) {k : Option Nat} (hk : t = .binary → k = some (sizeOfDatum d)) :
    ∃ e, element C t d k = .ret e ∧ elemText e = datumText C t d ∧ e ≠ .unknown ∧ 0 ∉ elemText e := by
  have hq : ∀ {l : List UInt8}, 0 ∉ l → 0 ∉ byte '"' :: (l ++ [byte '"']) := by
    intro l hl
    have : (0 : UInt8) ≠ byte '"' := by decide
    simp [hl, this]
  cases t <;> cases d <;> first
    | exact absurd rfl ht
    | exact absurd h id
    | exact ⟨_, rfl, digits_number _, by simp, byte_digits_ne _⟩
    | exact ⟨_, rfl, rfl, by simp, hC.g7 _⟩
    | exact ⟨_, rfl, rfl, by simp, hC.g16 _⟩
    | skip
  case string.string s =>
    cases s with
    | none => exact absurd h id
    | some l => exact ⟨_, rfl, rfl, by simp, hq h⟩
  case binary.bytes s =>
    cases s with
    | none => exact absurd h id
    | some l =>
      rw [hk rfl]
      refine ⟨.binary l, ?_, rfl, by simp, ?_⟩
      · show (if l.length ≤ l.length then Outcome.ret (Elem.binary (l.take l.length)) else .ub) = _
        rw [if_pos (Nat.le_refl _), List.take_length]
      · have hx : ∀ n < 16, (0 : UInt8) ≠ hexLower n := by decide
        simp only [elemText, hexByte_eq, List.mem_cons, List.mem_flatMap, not_or, not_exists, not_and]
        refine ⟨by decide, by decide, fun c _ hc => ?_⟩
        simp only [hex2, List.mem_cons, List.not_mem_nil, or_false] at hc
        have := c.toNat_lt
        rcases hc with hc | hc
        · exact hx _ (by omega) hc
        · exact hx _ (by omega) hc

theorem elements_eq (hC : Printable C) {t : ElemType} (ht : t ≠ .other) : ∀ {l : List (Datum F)} {ss : List Nat}, (∀ d ∈ l, HasElemType t d) →
    (t = .binary → ss = l.map sizeOfDatum) →
    ∃ es, elements C t l ss = .ret es ∧ es.map elemText = l.map (datumText C t) ∧ LogOp.Proper (.array es)
  | [], ss, _, _ => ⟨[], rfl, rfl, fun _ h => by simp at h⟩
  | d :: l, ss, h, hs => by
    obtain ⟨e, h1, h2, h3, h4⟩ := element_eq hC ht (h d (by simp)) (k := ss.head?) (fun hb => by rw [hs hb]; rfl)
    obtain ⟨es, h5, h6, h7⟩ := elements_eq hC ht (l := l) (ss := ss.tail) (fun d hd => h d (by simp [hd])) (fun hb => by rw [hs hb]; rfl)
    refine ⟨e :: es, ?_, by simp [h2, h6], ?_⟩
    · rw [elements, h1, Outcome.ret_bind, h5, Outcome.ret_bind]
    · intro x hx
      rcases List.mem_cons.1 hx with rfl | hx
      · exact ⟨h3, h4⟩
      · exact h7 x hx

/-- How the arguments can be shown: arrays of bytes and the like only by their address. -/
def Showable : ParamType → Shape → Prop
  | .array .other _ _, .value => False
  | .array .binary _ none, .value => False
  | .array .binary _ (some _), .value => True
  | .array _ _ (some _), .value => False
  | .struct fs, .value => (∀ f ∈ fs, ∀ c ∈ f.1, byte c ≠ 0) ∧ (fs.map (·.1)).Nodup
  | .struct _, .address => False
  | _, _ => True

instance : ∀ t s, Decidable (Showable t s) := fun t s => by
  unfold Showable
  split <;> infer_instance

theorem toksText_name {n : Name} (h : ∀ c ∈ n, byte c ≠ 0) : ToksText C args (nameToks n) (n.map byte) := by
  induction n with
  | nil => exact .nil
  | cons c n ih => exact .cons (.chr (h c (by simp))) (ih fun c hc => h c (by simp [hc]))

theorem toksText_fields (hC : Printable C) {n : Name} {a : Nat} {all : List (Name × Val F)} (hn : args.lookup n = some (.struct a all)) : ∀ {ts : List (Name × ScalarType)} {fs : List (Name × Val F)},
    FitFields ts fs → (∀ f ∈ ts, ∀ c ∈ f.1, byte c ≠ 0) → (∀ x ∈ fs, all.lookup x.1 = some x.2) →
    ToksText C args (fieldsToks n ts) (commaSeparated (fs.map fun f => f.1.map byte ++ [byte '='] ++ valueText C f.2))
  | [], [], _, _, _ => .nil
  | [], _ :: _, h, _, _ => absurd h id
  | _ :: _, [], h, _, _ => absurd h id
  | (f, t) :: ts, (m, v) :: fs, ⟨hm, ht, h⟩, h0, hl => by
    subst hm
    have eq : byte '=' ≠ 0 := by decide
    have ec : byte ',' ≠ 0 := by decide
    have es : byte ' ' ≠ 0 := by decide
    have hv : evalRef args (.field n m) = .ret v := by
      rw [evalRef, hn]
      simp only
      rw [hl (m, v) (by simp)]
    have h1 := toksText_scalar hC hv ht
    have h2 := toksText_fields hC hn h (fun f hf => h0 f (by simp [hf])) (fun x hx => hl x (by simp [hx]))
    have h3 : ToksText C args (nameToks m ++ [.chr '='] ++ scalarToks (.field n m) t) (m.map byte ++ [byte '='] ++ valueText C v) :=
      ((toksText_name (h0 (m, t) (by simp)) (C := C) (args := args)).append (ToksText.cons (.chr eq) .nil (C := C) (args := args))).append h1
    rw [fieldsToks]
    cases ts with
    | nil =>
      cases fs with
      | nil => rw [if_pos rfl, List.append_nil]; exact h3
      | cons _ _ => exact absurd h id
    | cons t' ts =>
      cases fs with
      | nil => exact absurd h id
      | cons f' fs =>
        rw [if_neg (by simp)]
        have := h3.append (ToksText.cons (.chr ec) (.cons (.chr es) h2))
        rw [List.map_cons, List.map_cons, commaSeparated]
        · simpa only [List.map_cons, List.append_assoc, List.cons_append, List.nil_append] using this
        · simp

theorem names_of_fitFields : ∀ {ts : List (Name × ScalarType)} {fs : List (Name × Val F)}, FitFields ts fs → fs.map (·.1) = ts.map (·.1)
  | [], [], _ => rfl
  | [], _ :: _, h => absurd h id
  | _ :: _, [], h => absurd h id
  | (f, t) :: ts, (m, v) :: fs, ⟨hm, _, h⟩ => by rw [List.map_cons, List.map_cons, names_of_fitFields h, hm]

theorem lookup_of_nodup {α : Type} : ∀ {as : List (Name × α)}, (as.map (·.1)).Nodup → ∀ x ∈ as, as.lookup x.1 = some x.2
  | [], _, x, h => by simp at h
  | (n, a) :: as, hd, x, h => by
    rw [List.map_cons, List.nodup_cons] at hd
    rcases List.mem_cons.1 h with rfl | h
    · simp [List.lookup]
    · have hne : x.1 ≠ n := fun e => hd.1 (List.mem_map.2 ⟨x, h, e⟩)
      rw [List.lookup, (beq_eq_false_iff_ne).2 hne]
      exact lookup_of_nodup hd.2 x h

theorem toksText_arg (hC : Printable C) {n : Name} {p : ParamType} {a : Arg F} (hn : args.lookup n = some a) (h : Fits args p a) {s : Shape} (hs : Showable p s) :
    ∃ t, ToksText C args (argToks n p s) t ∧ Shown C a t := by
  have e0 : byte '0' ≠ 0 := by decide
  have ex : byte 'x' ≠ 0 := by decide
  have address : ∀ {b : Nat}, evalRef args (.var n) = .ret (.pointer b) → ToksText C args [.chr '0', .chr 'x', .val .p (.var n)] ([byte '0', byte 'x'] ++ C.p b) := by
    intro b hb
    have := ToksText.cons (.chr e0) (.cons (.chr ex) (.cons (.val hb (k := .p) rfl (hC.p b)) .nil (C := C)))
    rwa [List.append_nil] at this
  cases p with
  | scalar t =>
    cases a with
    | scalar v => exact ⟨_, toksText_scalar hC (by rw [evalRef, hn]) h, .value⟩
    | array _ _ _ => exact absurd h id
    | out _ _ => exact absurd h id
    | struct _ _ => exact absurd h id
  | struct ts =>
    cases a with
    | scalar _ => exact absurd h id
    | array _ _ _ => exact absurd h id
    | out _ _ => exact absurd h id
    | struct b fs =>
      cases s with
      | address => exact absurd hs id
      | value =>
        have e1 : byte '{' ≠ 0 := by decide
        have e2 : byte '}' ≠ 0 := by decide
        have hd : (fs.map (·.1)).Nodup := by rw [names_of_fitFields h]; exact hs.2
        have := toksText_fields hC hn h hs.1 (lookup_of_nodup hd)
        refine ⟨_, ?_, .members⟩
        exact ((ToksText.cons (.chr e1) .nil (C := C) (args := args)).append this).append (ToksText.cons (.chr e2) .nil (C := C) (args := args))
  | out t =>
    cases a with
    | scalar v => exact absurd h id
    | array _ _ _ => exact absurd h id
    | struct _ _ => exact absurd h id
    | out b v =>
      cases v with
      | none => exact absurd h id
      | some v =>
        cases s with
        | value => exact ⟨_, toksText_scalar hC (by rw [evalRef, hn]) h, .result⟩
        | address => exact ⟨_, address (by rw [evalRef, hn]), .resultAddress⟩
  | array t c s' =>
    cases a with
    | scalar v => exact absurd h id
    | out b v => exact absurd h id
    | struct _ _ => exact absurd h id
    | array b t' l =>
      obtain ⟨rfl, hc, hd, hb⟩ := h
      cases s with
      | address => exact ⟨_, address (by rw [evalRef, hn]), .arrayAddress⟩
      | value =>
        have ht : t' ≠ .other := by rintro rfl; exact hs
        have hr : ∃ ss, sizesOf args s' = .ret ss ∧ (t' = .binary → ss = (l.getD []).map sizeOfDatum) := by
          cases s' with
          | none => exact ⟨[], rfl, fun e => by subst e; exact absurd hs id⟩
          | some x =>
            have : t' = .binary := by
              cases t' <;> first | rfl | exact absurd hs id
            obtain ⟨s'', e, a, l', h1, h2⟩ := hb this
            cases e
            refine ⟨_, by rw [sizesOf, h1], fun _ => ?_⟩
            rw [h2, Option.getD_some, List.map_map]
            rfl
        obtain ⟨ss, hss, hsb⟩ := hr
        obtain ⟨es, h1, h2, h3⟩ := elements_eq hC ht hd hsb
        have e1 : byte '{' ≠ 0 := by decide
        have e2 : byte '}' ≠ 0 := by decide
        have : readArray C args n c s' t' = .ret es := by
          rw [readArray, hn, hc]
          simp only
          rw [if_pos ⟨trivial, Nat.le_refl _⟩, hss, Outcome.ret_bind, List.take_length, h1]
        refine ⟨_, .cons (.chr e1) (.cons (.arr this h3) (.cons (.chr e2) .nil)), ?_⟩
        rw [arrayText_eq, h2]
        exact .elements

/-- The names are free of zero bytes and the arguments can be shown as intended. -/
def Sound : List Param → List Shape → Prop
  | [], [] => True
  | p :: ps, s :: ss => (∀ c ∈ p.name, byte c ≠ 0) ∧ Showable p.type s ∧ Sound ps ss
  | _, _ => False

instance decidableSound : ∀ ps ss, Decidable (Sound ps ss)
  | [], [] => isTrue trivial
  | [], _ :: _ => isFalse id
  | _ :: _, [] => isFalse id
  | _ :: ps, _ :: ss => have := decidableSound ps ss; inferInstanceAs (Decidable (_ ∧ _ ∧ _))

theorem fitAll_ne {ps : List Param} {as : Args F} (h : FitAll args ps as) (hp : ps ≠ []) : as ≠ [] := by
  cases ps with
  | nil => exact absurd rfl hp
  | cons _ _ => cases as with
    | nil => exact absurd h id
    | cons _ _ => simp

theorem toksText_params (hC : Printable C) : ∀ {ps : List Param} {ss : List Shape} {as : Args F}, FitAll args ps as → Sound ps ss →
    (∀ x ∈ as, args.lookup x.1 = some x.2) → ∃ ts, ToksText C args (paramsToks ps ss) (commaSeparated ts) ∧ ShownAll C as ts ∧ (ps = [] → ts = []) ∧ (ps ≠ [] → ts ≠ [])
  | [], ss, [], _, _, _ => ⟨[], by unfold paramsToks; exact .nil, .nil, fun _ => rfl, fun h => absurd rfl h⟩
  | [], _, _ :: _, h, _, _ => absurd h id
  | _ :: _, _, [], h, _, _ => absurd h id
  | _ :: _, [], _ :: _, _, h, _ => absurd h id
  | p :: ps, s :: ss, (n, a) :: as, ⟨hn, hf, h⟩, ⟨h1, h2, h3⟩, hl => by
    subst hn
    obtain ⟨t, ht, hs⟩ := toksText_arg hC (hl (p.name, a) (by simp)) hf h2
    obtain ⟨ts, hts, hss, he, hne⟩ := toksText_params hC h h3 (fun x hx => hl x (by simp [hx]))
    have eq : byte '=' ≠ 0 := by decide
    have ec : byte ',' ≠ 0 := by decide
    have es : byte ' ' ≠ 0 := by decide
    refine ⟨_ :: ts, ?_, .cons hs hss, (fun h => by cases h), by simp⟩
    have h4 : ToksText C args (nameToks p.name ++ [.chr '='] ++ argToks p.name p.type s) (p.name.map byte ++ [byte '='] ++ t) := by
      have := (toksText_name h1 (C := C) (args := args)).append (ToksText.cons (.chr eq) .nil (C := C) (args := args))
      exact this.append ht
    rw [paramsToks]
    by_cases hp : ps = []
    · rw [he hp, if_pos hp, List.append_nil]
      exact h4
    · rw [if_neg hp]
      obtain ⟨u, us, rfl⟩ := List.exists_cons_of_ne_nil (hne hp)
      have := h4.append (ToksText.cons (.chr ec) (.cons (.chr es) hts))
      rw [commaSeparated]
      · simpa only [List.append_assoc, List.cons_append, List.nil_append] using this
      · simp

/-- What is checked for a function. -/
structure Checked (w : Wrapper) (ps : List Param) (ss : List Shape) : Prop where
  toks : toksOf w.code = some (messageToks w.name ps ss)
  name : ∀ c ∈ w.name, byte c ≠ 0
  sound : Sound ps ss
  distinct : (ps.map (·.name)).Nodup

theorem names_of_fitAll : ∀ {ps : List Param} {as : Args F}, FitAll args ps as → as.map (·.1) = ps.map (·.name)
  | [], [], _ => rfl
  | [], _ :: _, h => absurd h id
  | _ :: _, [], h => absurd h id
  | p :: ps, (n, a) :: as, ⟨hn, _, h⟩ => by rw [List.map_cons, List.map_cons, names_of_fitAll h, hn]

/-- A checked function reports its calls as specified. -/
theorem Checked.message {w : Wrapper} {ps : List Param} {ss : List Shape} (h : Checked w ps ss) (hC : Printable C) (hf : FitAll args ps args) :
    ∃ os, logOps C args w.code = .ret os ∧ (∀ op ∈ os, LogOp.Proper op) ∧ IsMessage C w.name args (logText [] os) := by
  obtain ⟨ts, hts, hsh, -, -⟩ := toksText_params hC hf h.sound (lookup_of_nodup (by rw [names_of_fitAll hf]; exact h.distinct))
  have eo : byte '(' ≠ 0 := by decide
  have ec : byte ')' ≠ 0 := by decide
  have := (((toksText_name h.name (C := C) (args := args)).append (ToksText.cons (.chr eo) .nil (C := C) (args := args))).append hts).append (ToksText.cons (.chr ec) .nil (C := C) (args := args))
  obtain ⟨os, h1, h2, h3⟩ := logOps_of_toks h.toks this
  refine ⟨os, h1, h2, ts, hsh, ?_⟩
  rw [h3]
  rfl

theorem takeWhile_string : ∀ {t rest : List UInt8}, 0 ∉ t → (t ++ 0 :: rest).takeWhile (· ≠ 0) = t
  | [], _, _ => by simp
  | c :: t, rest, h => by
    have hc : c ≠ 0 := fun e => h (by simp [e])
    rw [List.cons_append, List.takeWhile_cons_of_pos (by simpa using hc), takeWhile_string (fun h' => h (by simp [h']))]

/-- A report, if no text hits a boundary of the buffer. -/
theorem report_ret {al : Allocator} (hal : ∀ k, al k ≠ none) {w : Wrapper} {os : List LogOp} (ho : logOps C args w.code = .ret os) (hp : ∀ op ∈ os, LogOp.Proper op) (hm : Misses [] os) :
    ∃ fuel₀, ∀ fuel, fuel₀ ≤ fuel → ∀ s file b, (∃ txt, Holds b txt) →
      ∃ b', report C al fuel w args s b file = .ret (b', file ++ logText [] os ++ arrow s) ∧ ∃ txt, Holds b' txt := by
  obtain ⟨f, hf⟩ := run_holds hal os [] hp hm
  refine ⟨f, fun fuel hle s file b ⟨txt, hb⟩ => ?_⟩
  have hz : 0 ∉ logText [] os := zero_notMem_logText os [] (by simp) hp
  have : ∃ b', LogBuffer.run al fuel b (.clear :: os) = .ret b' ∧ Holds b' (logText [] os) := by
    obtain ⟨b1, e1, h1⟩ := clear_holds hb
    obtain ⟨b2, e2, h2⟩ := hf fuel hle b1 h1
    exact ⟨b2, by simp only [LogBuffer.run, LogBuffer.step, e1, Outcome.ret_bind, e2], h2⟩
  obtain ⟨b', e, h⟩ := this
  obtain ⟨rest, h1, h2⟩ := h.buf
  refine ⟨b', ?_, _, h⟩
  rw [report, ho, Outcome.ret_bind, e, Outcome.ret_bind, h1, logFunctionCall, if_pos (by simp), takeWhile_string hz]
  rfl

theorem arrow_eq (s : Status) : arrow s = (chars! " -> ").map byte ++ (statusName s).map byte ++ [byte '\n'] := by
  cases s <;> decide +kernel

/-- How the arguments are shown in the parts. -/
def shapesOf (ks : List Tok) (ps : List Param) : List Shape := ps.map fun p =>
  match p.type with
  | .scalar _ => .value
  | _ => if .val .p (.var p.name) ∈ ks then .address else .value

def check (w : Wrapper) (ps : List Param) : Bool :=
  decide (toksOf w.code = some (messageToks w.name ps (shapesOf ((toksOf w.code).getD []) ps)) ∧ (∀ c ∈ w.name, byte c ≠ 0) ∧
    Sound ps (shapesOf ((toksOf w.code).getD []) ps) ∧ (ps.map (·.name)).Nodup)

theorem checked_of_check {w : Wrapper} {ps : List Param} (h : check w ps = true) : ∃ ss, Checked w ps ss := by
  obtain ⟨h1, h2, h3, h4⟩ := of_decide_eq_true h
  exact ⟨_, h1, h2, h3, h4⟩

/-- All functions of the table but some are checked. -/
def checkAll (ws : List Wrapper) (sigs : List (Name × List Param)) (faulty : List Name) : Bool :=
  ws.all fun w => decide (w.name ∈ faulty) || match sigs.lookup w.name with
    | some ps => check w ps
    | none => false

theorem checked_of_checkAll {ws : List Wrapper} {sigs : List (Name × List Param)} {faulty : List Name} (h : checkAll ws sigs faulty = true) {w : Wrapper} (hw : w ∈ ws)
    (hn : w.name ∉ faulty) : ∃ ps ss, sigs.lookup w.name = some ps ∧ Checked w ps ss := by
  have := List.all_eq_true.1 h w hw
  rw [Bool.or_eq_true] at this
  rcases this with h | h
  · exact absurd (of_decide_eq_true h) hn
  · split at h
    · next ps e =>
      obtain ⟨ss, h⟩ := checked_of_check h
      exact ⟨ps, ss, e, h⟩
    · cases h

/-- The calls of functions of the table, with the arguments they take, whose texts hit no boundary of the buffer. -/
def GoodCall (C : CLib F) (ws : List Wrapper) (sigs : List (Name × List Param)) (faulty : List Name) (c : Wrapper × Args F × Status) : Prop :=
  c.1 ∈ ws ∧ c.1.name ∉ faulty ∧ (∃ ps, sigs.lookup c.1.name = some ps ∧ FitAll c.2.1 ps c.2.1) ∧ ∀ os, logOps C c.2.1 c.1.code = .ret os → Misses [] os

theorem reports_log {ws : List Wrapper} {sigs : List (Name × List Param)} {faulty : List Name} (h : checkAll ws sigs faulty = true) (hC : Printable C) {al : Allocator}
    (hal : ∀ k, al k ≠ none) : ∀ (cs : List (Wrapper × Args F × Status)), (∀ c ∈ cs, GoodCall C ws sigs faulty c) →
    ∃ fuel₀, ∀ fuel, fuel₀ ≤ fuel → ∀ b file, (∃ txt, Holds b txt) →
      ∃ b' log, reports C al fuel cs b file = .ret (b', file ++ log) ∧ IsLog C (cs.map fun c => (c.1.name, c.2)) log
  | [], _ => ⟨0, fun _ _ b file _ => ⟨b, [], by rw [reports, List.append_nil], .nil⟩⟩
  | (w, as, s) :: cs, hc => by
    obtain ⟨h1, h2, ⟨ps, h3, h4⟩, h5⟩ := hc _ (List.mem_cons_self ..)
    obtain ⟨ps', ss, e, hk⟩ := checked_of_checkAll h h1 h2
    cases h3.symm.trans e
    obtain ⟨os, e1, e2, e3⟩ := hk.message hC h4
    obtain ⟨f1, hf1⟩ := report_ret hal e1 e2 (h5 os e1)
    obtain ⟨f2, hf2⟩ := reports_log h hC hal cs fun c hm => hc c (List.mem_cons_of_mem _ hm)
    refine ⟨max f1 f2, fun fuel hle b file hb => ?_⟩
    obtain ⟨b1, g1, hb1⟩ := hf1 fuel (by omega) s file b hb
    obtain ⟨b2, log, g2, g3⟩ := hf2 fuel (by omega) b1 (file ++ logText [] os ++ arrow s) hb1
    refine ⟨b2, logText [] os ++ arrow s ++ log, ?_, ?_⟩
    · rw [reports, g1, Outcome.ret_bind]
      rw [g2]
      simp only [List.append_assoc]
    · rw [arrow_eq, ← List.append_assoc, ← List.append_assoc]
      exact .cons e3 g3

end Verif.Importer.CallLog
