import Verif.Spec.LogText
import Verif.Lemmas.Ode

/-! # Lemmas: the log message buffer -/

namespace Verif.Importer
open Verif Spec

/-- The buffer holds `txt` and is large enough. -/
structure Holds (b : LogBuffer) (txt : List UInt8) : Prop where
  pos : b.position = txt.length
  size : BufferSize b.size
  room : txt.length < b.size
  buf : ∃ rest, b.buffer = some (txt ++ 0 :: rest) ∧ (txt ++ 0 :: rest).length = b.size

theorem snprintf_fits {l txt t : List UInt8} {n : Nat} (hl : ∃ r, l = txt ++ r)
    (hn : l.length = n) (hf : txt.length + t.length < n) :
    ∃ rest, snprintf (some l) txt.length (n - txt.length) t = .ret (some (txt ++ t ++ 0 :: rest)) ∧
      (txt ++ t ++ 0 :: rest).length = n := by
  obtain ⟨r, rfl⟩ := hl
  refine ⟨r.drop (t.length + 1), ?_, ?_⟩
  · simp only [snprintf, if_neg (by omega : ¬ n - txt.length = 0)]
    rw [List.take_of_length_le (by omega), writeN_eq _ _ _ (by simp at *; omega)]
    simp [List.drop_append]
  · simp at *; omega

theorem snprintf_any {l txt t : List UInt8} {n : Nat} (hl : ∃ r, l = txt ++ r)
    (hn : l.length = n) (hp : txt.length ≤ n) :
    ∃ r, snprintf (some l) txt.length (n - txt.length) t = .ret (some (txt ++ r)) ∧
      (txt ++ r).length = n := by
  obtain ⟨r, rfl⟩ := hl
  unfold snprintf
  split
  · exact ⟨r, rfl, hn⟩
  · rename_i h0
    have hlen : (t.take (n - txt.length - 1) ++ [(0 : UInt8)]).length ≤ n - txt.length := by
      simp; omega
    rw [writeN_eq _ _ _ (by simp at *; omega)]
    refine ⟨(t.take (n - txt.length - 1) ++ [0]) ++
      r.drop (t.take (n - txt.length - 1) ++ [(0 : UInt8)]).length, ?_, ?_⟩
    · simp [List.drop_append]
    · simp at *; omega

theorem _root_.Verif.Spec.BufferSize.pos {n : Nat} (h : BufferSize n) : 0 < n := by
  obtain ⟨k, rfl⟩ := h
  exact Nat.mul_pos (by omega) (Nat.pow_pos (by omega))

theorem _root_.Verif.Spec.BufferSize.double {n : Nat} (h : BufferSize n) : BufferSize (n * 2) := by
  obtain ⟨k, rfl⟩ := h
  exact ⟨k + 1, by rw [Nat.pow_succ, Nat.mul_assoc]⟩

theorem growTo_eq : ∀ (fuel size needed : Nat), BufferSize size → 0 < fuel →
    needed < fuel + size →
    ∃ s, growTo fuel size needed = .ret s ∧ BufferSize s ∧ needed ≤ s ∧ size ≤ s := by
  intro fuel
  induction fuel with
  | zero => intro size needed _ h; omega
  | succ fuel ih =>
    intro size needed hb _ h
    simp only [growTo]
    have hp := hb.pos
    split
    · obtain ⟨s, h1, h2, h3, h4⟩ := ih (size * 2) needed hb.double (by omega) (by omega)
      exact ⟨s, h1, h2, h3, by omega⟩
    · exact ⟨size, rfl, hb, by omega, Nat.le_refl _⟩

/-- As `Holds`, but the text need not be terminated. -/
structure Pre (b : LogBuffer) (txt : List UInt8) : Prop where
  pos : b.position = txt.length
  size : BufferSize b.size
  room : txt.length < b.size
  buf : ∃ r, b.buffer = some (txt ++ r) ∧ (txt ++ r).length = b.size

theorem Holds.pre {b txt} (h : Holds b txt) : Pre b txt :=
  ⟨h.pos, h.size, h.room, let ⟨r, h1, h2⟩ := h.buf; ⟨0 :: r, h1, h2⟩⟩

theorem realloc_pre {al : Allocator} (hal : ∀ k, al k ≠ none) {b : LogBuffer} {txt : List UInt8}
    {n : Nat} (hb : ∃ r, b.buffer = some (txt ++ r) ∧ (txt ++ r).length ≤ n)
    (ht : txt.length < n) (hs : BufferSize n) (hp : b.position = txt.length) :
    ∃ b', ({ b with size := n } : LogBuffer).realloc al n = (true, b') ∧ b'.size = n ∧ Pre b' txt := by
  obtain ⟨r, h1, h2⟩ := hb
  unfold LogBuffer.realloc
  cases ha : al b.calls with
  | none => exact absurd ha (hal _)
  | some fill =>
    refine ⟨_, rfl, rfl, hp, hs, ht, ?_⟩
    simp only [h1, Option.getD_some, reallocated]
    rw [List.take_of_length_le h2, List.append_assoc]
    refine ⟨_, rfl, ?_⟩
    simp at *; omega

theorem clear_holds {b : LogBuffer} {txt} (h : Holds b txt) :
    ∃ b', b.clear = .ret b' ∧ Holds b' [] := by
  obtain ⟨r, h1, h2⟩ := h.buf
  have hs := h.size.pos
  simp only [LogBuffer.clear, if_pos hs, h1, Ptr.write]
  have hl : 0 < (txt ++ 0 :: r).length := by omega
  rw [if_pos hl]
  refine ⟨_, rfl, rfl, h.size, hs, ?_⟩
  refine ⟨(txt ++ 0 :: r).drop 1, ?_, ?_⟩
  · simp only [List.nil_append]
    rw [List.set_eq_take_append_cons_drop, if_pos hl]; simp
  · rw [← h2]; simp; omega

theorem append_holds {al : Allocator} (hal : ∀ k, al k ≠ none) {b : LogBuffer} {txt t}
    (h : Holds b txt) (hm : ¬ BufferSize (txt.length + t.length)) {fuel : Nat}
    (hf : txt.length + t.length + 1 ≤ fuel) :
    ∃ b', b.append al fuel t = .ret b' ∧ Holds b' (txt ++ t) := by
  have hpre := h.pre
  obtain ⟨r, h1, h2⟩ := hpre.buf
  have hroom := h.room
  unfold LogBuffer.append
  rw [h.pos, h1]
  by_cases hfit : txt.length + t.length < b.size
  · obtain ⟨rest, e, hl⟩ := snprintf_fits (l := txt ++ r) (t := t) ⟨r, rfl⟩ h2 hfit
    rw [e]
    simp only [Outcome.ret_bind]
    rw [if_pos (by omega)]
    refine ⟨_, rfl, by simp [h.pos], h.size, by simpa using hfit, rest, rfl, hl⟩
  · obtain ⟨r', e, hl⟩ := snprintf_any (l := txt ++ r) (t := t) ⟨r, rfl⟩ h2 (by omega)
    rw [e]
    simp only [Outcome.ret_bind]
    rw [if_neg (by omega)]
    obtain ⟨s, h3, h4, h5, h6⟩ := growTo_eq fuel b.size (txt.length + t.length) h.size
      (by omega) (by omega)
    have hlt : txt.length + t.length < s := by
      rcases Nat.lt_or_eq_of_le h5 with h | h
      · exact h
      · exact absurd (h ▸ h4) hm
    rw [h3]
    simp only [Outcome.ret_bind]
    obtain ⟨b', hr, hs, hp⟩ := realloc_pre hal
      (b := { b with buffer := some (txt ++ r') }) (n := s) ⟨r', rfl, by omega⟩ (by omega) h4 h.pos
    have hr' : LogBuffer.realloc al ⟨some (txt ++ r'), s, txt.length, b.calls⟩ s = (true, b') := by
      rw [← hr]; simp only [h.pos]
    simp only [hr']
    obtain ⟨r2, h7, h8⟩ := hp.buf
    rw [hp.pos, h7]
    obtain ⟨rest, e, hl⟩ := snprintf_fits (l := txt ++ r2) (t := t) ⟨r2, rfl⟩ h8 (by omega)
    rw [e]
    refine ⟨_, rfl, by simp, hp.size, ?_, rest, rfl, hl⟩
    simp only [List.length_append]; omega

theorem hexLoop_eq : ∀ (bytes : List UInt8) (l txt : List UInt8) (n : Nat),
    (∃ rest, l = txt ++ 0 :: rest) → l.length = n → txt.length + 2 * bytes.length < n →
    ∃ rest, hexLoop bytes (some l) txt.length (n - txt.length) =
        .ret (some (txt ++ bytes.flatMap hex2 ++ 0 :: rest)) ∧
      (txt ++ bytes.flatMap hex2 ++ 0 :: rest).length = n := by
  intro bytes
  induction bytes with
  | nil =>
    rintro l txt n ⟨r, rfl⟩ hn _
    exact ⟨r, by simp [hexLoop], by simpa using hn⟩
  | cons c bytes ih =>
    rintro l txt n ⟨r, rfl⟩ hn hlt
    simp only [List.length_cons] at hlt
    have h2 : (hex2 c).length = 2 := rfl
    obtain ⟨rest, e, hl⟩ := snprintf_fits (l := txt ++ 0 :: r) (t := hex2 c) ⟨_, rfl⟩ hn (by omega)
    simp only [hexLoop, e, Outcome.ret_bind]
    have hlen : (txt ++ hex2 c).length = txt.length + 2 := by simp [h2]
    obtain ⟨rest', e', hl'⟩ := ih (txt ++ hex2 c ++ 0 :: rest) (txt ++ hex2 c) n ⟨rest, rfl⟩ hl
      (by omega)
    rw [hlen] at e'
    rw [show n - txt.length - 2 = n - (txt.length + 2) by omega, e']
    exact ⟨rest', by simp, by simpa using hl'⟩

theorem hexByte_eq : hexByte = hex2 := by
  have h : ∀ n < 16, hexDigits.getD n 0 = hexLower n := by decide
  funext b
  have := b.toNat_lt
  rw [hexByte, hex2, h _ (by omega), h _ (by omega)]

theorem flatMap_hex2_length (bytes : List UInt8) : (bytes.flatMap hex2).length = 2 * bytes.length := by
  induction bytes with
  | nil => rfl
  | cons c bytes ih => simp only [List.flatMap_cons, List.length_append, ih, List.length_cons]
                       simp only [hex2, List.length_cons, List.length_nil]; omega

theorem printElem_fits {l txt : List UInt8} {n : Nat} {e : Elem} (he : e ≠ .unknown)
    (hl : ∃ r, l = txt ++ r) (hn : l.length = n) (hf : txt.length + (elemText e).length < n) :
    ∃ rest, printElem (some l) txt.length (n - txt.length) e =
        some (.ret (some (txt ++ elemText e ++ 0 :: rest), (elemText e).length)) ∧
      (txt ++ elemText e ++ 0 :: rest).length = n := by
  cases e with
  | unknown => exact absurd rfl he
  | text t =>
    obtain ⟨rest, e, h⟩ := snprintf_fits (t := t) hl hn hf
    exact ⟨rest, by simp only [printElem, e, Outcome.ret_bind, elemText], h⟩
  | binary bytes =>
    have hlen : (elemText (.binary bytes)).length = 2 + bytes.length * 2 := by
      simp only [elemText, hexByte_eq, List.length_cons, flatMap_hex2_length]; omega
    rw [hlen] at hf
    have h0x : (ascii "0x") = [48, 120] := by decide +kernel
    obtain ⟨rest, e, h⟩ := snprintf_fits (t := [48, 120]) hl hn (by simp; omega)
    simp only [printElem, if_pos (by omega : 2 + bytes.length * 2 < n - txt.length), h0x, e,
      Outcome.ret_bind]
    have hl2 : (txt ++ [48, 120]).length = txt.length + 2 := by simp
    obtain ⟨rest', e', h'⟩ := hexLoop_eq bytes (txt ++ [48, 120] ++ 0 :: rest) (txt ++ [48, 120]) n
      ⟨rest, rfl⟩ h (by omega)
    rw [hl2] at e'
    rw [show n - txt.length - 2 = n - (txt.length + 2) by omega, e', hlen]
    refine ⟨rest', ?_, ?_⟩
    · simp [elemText, hexByte_eq]
    · simpa [elemText, hexByte_eq] using h'

theorem printElem_any {l txt : List UInt8} {n : Nat} {e : Elem} (he : e ≠ .unknown)
    (hl : ∃ r, l = txt ++ r) (hn : l.length = n) (hp : txt.length ≤ n) :
    ∃ r, printElem (some l) txt.length (n - txt.length) e =
        some (.ret (some (txt ++ r), (elemText e).length)) ∧ (txt ++ r).length = n := by
  cases e with
  | unknown => exact absurd rfl he
  | text t =>
    obtain ⟨r, e, h⟩ := snprintf_any (t := t) hl hn hp
    exact ⟨r, by simp only [printElem, e, Outcome.ret_bind, elemText], h⟩
  | binary bytes =>
    have hlen : (elemText (.binary bytes)).length = 2 + bytes.length * 2 := by
      simp only [elemText, hexByte_eq, List.length_cons, flatMap_hex2_length]; omega
    by_cases hf : txt.length + (elemText (.binary bytes)).length < n
    · obtain ⟨rest, e, h⟩ := printElem_fits he hl hn hf
      exact ⟨elemText (.binary bytes) ++ 0 :: rest, by rw [e]; simp, by simpa using h⟩
    · obtain ⟨r, rfl⟩ := hl
      refine ⟨r, ?_, hn⟩
      simp only [printElem, if_neg (by omega : ¬ 2 + bytes.length * 2 < n - txt.length), hlen]

theorem elem_ready {al : Allocator} {b : LogBuffer} {txt e es} {fuel : Nat} (he : e ≠ .unknown)
    (h : Pre b txt) (hf : txt.length + (elemText e).length + 3 < b.size) :
    ∃ b₁, Holds b₁ (txt ++ elemText e) ∧ (txt ++ elemText e).length + 3 < b₁.size ∧
      b.appendArray al (fuel + 1) (e :: es) =
        if es.isEmpty then b₁.appendArray al fuel es
        else snprintf b₁.buffer b₁.position (b₁.size - b₁.position) (ascii ", ") >>- fun buffer =>
          ({ b₁ with buffer := buffer, position := b₁.position + 2 } : LogBuffer).appendArray
            al fuel es := by
  obtain ⟨r, h1, h2⟩ := h.buf
  obtain ⟨rest, e1, hl⟩ := printElem_fits he ⟨r, rfl⟩ h2 (by omega)
  refine ⟨⟨some (txt ++ elemText e ++ 0 :: rest), b.size, txt.length + (elemText e).length, b.calls⟩,
    ⟨by simp, h.size, by simp; omega, rest, rfl, hl⟩, by simp; omega, ?_⟩
  simp only [LogBuffer.appendArray, h.pos, h1, e1, Outcome.ret_bind]
  rw [if_pos (by omega)]

theorem elem_step {al : Allocator} (hal : ∀ k, al k ≠ none) {b : LogBuffer} {txt e es} {fuel : Nat}
    (he : e ≠ .unknown) (h : Pre b txt) (hm : ¬ BufferSize (txt.length + (elemText e).length + 3))
    (hfuel : txt.length + (elemText e).length + 3 < fuel) :
    ∃ b₁ f, fuel ≤ f ∧ Holds b₁ (txt ++ elemText e) ∧ (txt ++ elemText e).length + 3 < b₁.size ∧
      b.appendArray al (fuel + 2) (e :: es) =
        if es.isEmpty then b₁.appendArray al f es
        else snprintf b₁.buffer b₁.position (b₁.size - b₁.position) (ascii ", ") >>- fun buffer =>
          ({ b₁ with buffer := buffer, position := b₁.position + 2 } : LogBuffer).appendArray
            al f es := by
  by_cases hf : txt.length + (elemText e).length + 3 < b.size
  · obtain ⟨b₁, h1, h2, h3⟩ := elem_ready (al := al) (fuel := fuel + 1) (es := es) he h hf
    exact ⟨b₁, fuel + 1, by omega, h1, h2, h3⟩
  · have hroom := h.room
    obtain ⟨r, h1, h2⟩ := h.buf
    obtain ⟨r', e1, hl⟩ := printElem_any he ⟨r, rfl⟩ h2 (by omega)
    obtain ⟨s, h3, h4, h5, h6⟩ := growTo_eq (fuel + 1) b.size
      (txt.length + ((elemText e).length + 3)) h.size (by omega) (by omega)
    have hlt : txt.length + (elemText e).length + 3 < s := by
      rcases Nat.lt_or_eq_of_le h5 with h | h
      · omega
      · exact absurd (by rw [Nat.add_assoc, h]; exact h4) hm
    obtain ⟨b', hr, hs, hp⟩ := realloc_pre hal
      (b := { b with buffer := some (txt ++ r') }) (n := s) ⟨r', rfl, by omega⟩ (by omega) h4 h.pos
    have hr' : LogBuffer.realloc al ⟨some (txt ++ r'), s, txt.length, b.calls⟩ s = (true, b') := by
      rw [← hr]; simp only [h.pos]
    obtain ⟨b₁, h7, h8, h9⟩ := elem_ready (al := al) (fuel := fuel) (es := es) he hp (by omega)
    refine ⟨b₁, fuel, Nat.le_refl _, h7, h8, ?_⟩
    rw [← h9]
    rw [show fuel + 2 = (fuel + 1) + 1 from rfl, LogBuffer.appendArray.eq_3]
    simp only [h.pos, h1, e1, Outcome.ret_bind]
    rw [if_neg (by omega), h3]
    simp only [Outcome.ret_bind, hr']

theorem appendArray_holds {al : Allocator} (hal : ∀ k, al k ≠ none) : ∀ (es : List Elem)
    (b : LogBuffer) (txt : List UInt8) (fuel : Nat), Pre b txt → es ≠ [] →
    (∀ e ∈ es, e ≠ .unknown) → ArrayMisses txt.length es →
    txt.length + (arrayText es).length + 3 + 2 * es.length < fuel →
    ∃ b', b.appendArray al fuel es = .ret b' ∧ Holds b' (txt ++ arrayText es) := by
  intro es
  induction es with
  | nil => intro b txt fuel _ h; exact absurd rfl h
  | cons e es ih =>
    intro b txt fuel h _ hu hm hf
    have he := hu e (List.mem_cons_self ..)
    obtain ⟨fuel, rfl⟩ : ∃ f, fuel = f + 2 := ⟨fuel - 2, by simp at hf; omega⟩
    cases es with
    | nil =>
      simp only [arrayText, List.length_cons, List.length_nil] at hf
      obtain ⟨b₁, f, _, h1, _, h2⟩ := elem_step (al := al) hal (es := []) he h hm.1
        (fuel := fuel) (by omega)
      refine ⟨b₁, ?_, h1⟩
      rw [h2]
      simp only [List.isEmpty_nil, if_true]
      cases f <;> rfl
    | cons e' es =>
      have ha : arrayText (e :: e' :: es) = elemText e ++ [44, 32] ++ arrayText (e' :: es) := rfl
      rw [ha] at hf ⊢
      simp only [List.length_append, List.length_cons, List.length_nil] at hf
      obtain ⟨b₁, f, hfl, h1, h3, h2⟩ := elem_step (al := al) hal (es := e' :: es) he h hm.1
        (fuel := fuel) (by omega)
      obtain ⟨r, hb1, hb2⟩ := h1.buf
      have hc : (ascii ", ") = [44, 32] := by decide +kernel
      obtain ⟨rest, e1, hl⟩ := snprintf_fits (l := txt ++ elemText e ++ 0 :: r) (t := [44, 32])
        ⟨_, rfl⟩ hb2 (by simp only [List.length_cons, List.length_nil]; omega)
      rw [h2]
      simp only [List.isEmpty_cons, Bool.false_eq_true, if_false, h1.pos, hb1, hc, e1,
        Outcome.ret_bind]
      have := ih ⟨some (txt ++ elemText e ++ [44, 32] ++ 0 :: rest), b₁.size,
          (txt ++ elemText e).length + 2, b₁.calls⟩ (txt ++ elemText e ++ [44, 32]) f
        ⟨by simp; omega, h1.size, (by simp only [List.length_append, List.length_cons, List.length_nil] at *; omega), ⟨_, rfl, hl⟩⟩
        (by simp) (fun e h => hu e (List.mem_cons_of_mem _ h))
        (by
          have := hm.2
          simp only [List.length_append, List.length_cons, List.length_nil]
          exact this)
        (by simp only [List.length_append, List.length_cons, List.length_nil] at *; omega)
      obtain ⟨b', h7, h8⟩ := this
      exact ⟨b', h7, by simpa using h8⟩

theorem run_holds {al : Allocator} (hal : ∀ k, al k ≠ none) : ∀ (ops : List LogOp)
    (txt : List UInt8), (∀ op ∈ ops, LogOp.Proper op) → Misses txt ops →
    ∃ fuel₀, ∀ fuel, fuel₀ ≤ fuel → ∀ b, Holds b txt →
      ∃ b', LogBuffer.run al fuel b ops = .ret b' ∧ Holds b' (logText txt ops) := by
  intro ops
  induction ops with
  | nil => intro txt _ _; exact ⟨0, fun _ _ b h => ⟨b, rfl, h⟩⟩
  | cons op ops ih =>
    intro txt hp hm
    have hpo := hp op (List.mem_cons_self ..)
    have hps : ∀ op ∈ ops, LogOp.Proper op := fun op h => hp op (List.mem_cons_of_mem _ h)
    cases op with
    | clear =>
      obtain ⟨f, hf⟩ := ih [] hps hm
      refine ⟨f, fun fuel hle b hb => ?_⟩
      obtain ⟨b', e, hb'⟩ := clear_holds hb
      obtain ⟨b2, e2, h2⟩ := hf fuel hle b' hb'
      exact ⟨b2, by simp only [LogBuffer.run, LogBuffer.step, e, Outcome.ret_bind, e2], h2⟩
    | text t =>
      obtain ⟨f, hf⟩ := ih (txt ++ t) hps hm.2
      refine ⟨max f (txt.length + t.length + 1), fun fuel hle b hb => ?_⟩
      obtain ⟨b', e, hb'⟩ := append_holds (al := al) hal hb hm.1 (fuel := fuel) (by omega)
      obtain ⟨b2, e2, h2⟩ := hf fuel (by omega) b' hb'
      exact ⟨b2, by simp only [LogBuffer.run, LogBuffer.step, e, Outcome.ret_bind, e2], h2⟩
    | array es =>
      obtain ⟨f, hf⟩ := ih (txt ++ arrayText es) hps hm.2
      refine ⟨max f (txt.length + (arrayText es).length + 3 + 2 * es.length + 1),
        fun fuel hle b hb => ?_⟩
      have : ∃ b', b.appendArray al fuel es = .ret b' ∧ Holds b' (txt ++ arrayText es) := by
        by_cases hes : es = []
        · subst hes
          refine ⟨b, by cases fuel <;> rfl, by simpa [arrayText] using hb⟩
        · exact appendArray_holds hal es b txt fuel hb.pre hes (fun e h => (hpo e h).1) hm.1
            (by omega)
      obtain ⟨b', e, hb'⟩ := this
      obtain ⟨b2, e2, h2⟩ := hf fuel (by omega) b' hb'
      exact ⟨b2, by simp only [LogBuffer.run, LogBuffer.step, e, Outcome.ret_bind, e2], h2⟩

theorem zero_notMem_arrayText : ∀ es : List Elem, (∀ e ∈ es, 0 ∉ elemText e) → 0 ∉ arrayText es
  | [], _ => by simp [arrayText]
  | [e], h => h e (List.mem_cons_self ..)
  | e :: e' :: es, h => by
    have h1 := h e (List.mem_cons_self ..)
    have h2 := zero_notMem_arrayText (e' :: es) fun e he => h e (List.mem_cons_of_mem _ he)
    simp only [arrayText, List.mem_append, not_or] at *
    exact ⟨⟨h1, by decide⟩, h2⟩

theorem zero_notMem_logText : ∀ (ops : List LogOp) (txt : List UInt8), 0 ∉ txt →
    (∀ op ∈ ops, LogOp.Proper op) → 0 ∉ logText txt ops := by
  intro ops
  induction ops with
  | nil => intro txt h _; exact h
  | cons op ops ih =>
    intro txt h hp
    have hpo := hp op (List.mem_cons_self ..)
    have hps : ∀ op ∈ ops, LogOp.Proper op := fun op h => hp op (List.mem_cons_of_mem _ h)
    cases op with
    | clear => exact ih [] (by simp) hps
    | text t => exact ih _ (by rw [List.mem_append, not_or]; exact ⟨h, hpo⟩) hps
    | array es =>
      exact ih _ (by rw [List.mem_append, not_or]
                     exact ⟨h, zero_notMem_arrayText es fun e he => (hpo e he).2⟩) hps

end Verif.Importer
