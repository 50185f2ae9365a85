import Verif.Lemmas.Keep

/-!
# What calls store

A call stores no FMU state that was not the state of the instance or stored before. So an invariant of
the instance is an invariant of the stored states.
-/

set_option linter.unusedSectionVars false

namespace Verif
variable {F D : Type} {m : Model F D} {P : Comp F D → Prop} [Arith F] [HasInf F]

namespace FMI2

theorem WInv.next {fuel : Nat} {w w' : World F D} (h : WInv P w) {op : Op F} {s o}
    (e : step m fuel w op = .ret (w', s, o)) (hi : P w'.inst) : WInv P w' := by
  have keep : ∀ {β : Type} {r : Res F D β} {out : β → Out F}, w.run r out = .ret (w', s, o) → WInv P w' := by
    intro β r out e
    obtain ⟨y, -, e⟩ := Outcome.bind_eq_ret.1 e
    cases e
    exact ⟨hi, h.slots, h.bufs⟩
  have slot : ∀ {i r}, r.All (fun (x : Comp F D × Status × Option (Comp F D)) => ∀ s, x.2.2 = some s → P s) →
      w.runSlot i r = .ret (w', s, o) → WInv P w' := by
    intro i r hr e
    obtain ⟨y, ey, e⟩ := Outcome.bind_eq_ret.1 e
    have := hr y ey
    cases e
    refine ⟨hi, ?_, h.bufs⟩
    intro j s e
    simp only at e
    split at e
    · exact this s e
    · exact h.slots j s e
  cases op <;> simp only [step] at e
  case getFMUstate i =>
    refine slot ?_ e
    unfold getFMUstate begin beginFunction
    split
    · simpa using h.inst
    · simpa using h.slots i
  case freeFMUstate i =>
    refine slot ?_ e
    unfold freeFMUstate begin beginFunction
    split
    · simp
    · simpa using h.slots i
  case deSerializeFMUstate b n i =>
    refine slot ?_ e
    unfold deSerializeFMUstate begin beginFunction
    split
    · split
      · simpa using h.slots i
      · unfold Buffer.load
        split
        · simp
        · next bb eb =>
          split
          · simp
          · split
            · simp
            · next s es => simpa using h.bufs _ _ _ eb es
    · simpa using h.slots i
  case serializeFMUstate i b n =>
    have hr : (serializeFMUstate m w.inst (w.slots i) (w.bufs b) n).All fun x =>
        ∀ bb s, x.2.2 = some bb → bb.image = some s → P s := by
      unfold serializeFMUstate begin beginFunction
      split
      · split
        · simpa using h.bufs b
        · next s es =>
          split
          · simpa using h.bufs b
          · unfold Buffer.store
            split
            · simp
            · split
              · simp
              · simp only [Outcome.ret_bind, Outcome.all_ret]
                intro bb s' e e'
                cases e; cases e'
                exact h.slots _ _ es
      · simpa using h.bufs b
    obtain ⟨y, ey, e⟩ := Outcome.bind_eq_ret.1 e
    have := hr y ey
    cases e
    refine ⟨hi, h.slots, ?_⟩
    intro j bb s e e'
    simp only at e
    split at e
    · exact this bb s e e'
    · exact h.bufs j bb s e e'
  all_goals exact keep e

end FMI2

namespace FMI3

theorem WInv.next {fuel : Nat} {w w' : World F D} (h : WInv P w) {op : Op F} {s o}
    (e : step m fuel w op = .ret (w', s, o)) (hi : P w'.inst) : WInv P w' := by
  have keep : ∀ {β : Type} {r : Res F D β} {out : β → Out F}, w.run r out = .ret (w', s, o) → WInv P w' := by
    intro β r out e
    obtain ⟨y, -, e⟩ := Outcome.bind_eq_ret.1 e
    cases e
    exact ⟨hi, h.slots, h.bufs⟩
  have slot : ∀ {i r}, r.All (fun (x : Comp F D × Status × Option (Comp F D)) => ∀ s, x.2.2 = some s → P s) →
      w.runSlot i r = .ret (w', s, o) → WInv P w' := by
    intro i r hr e
    obtain ⟨y, ey, e⟩ := Outcome.bind_eq_ret.1 e
    have := hr y ey
    cases e
    refine ⟨hi, ?_, h.bufs⟩
    intro j s e
    simp only at e
    split at e
    · exact this s e
    · exact h.slots j s e
  cases op <;> simp only [step] at e
  case getFMUState i =>
    refine slot ?_ e
    unfold getFMUState begin beginFunction
    split
    · simpa using h.inst
    · simpa using h.slots i
  case freeFMUState i =>
    refine slot ?_ e
    unfold freeFMUState begin beginFunction
    split
    · simp
    · simpa using h.slots i
  case deserializeFMUState b n i =>
    refine slot ?_ e
    unfold deserializeFMUState begin beginFunction
    split
    · split
      · simpa using h.slots i
      · unfold Buffer.load
        split
        · simp
        · next bb eb =>
          split
          · simp
          · split
            · simp
            · next s es => simpa using h.bufs _ _ _ eb es
    · simpa using h.slots i
  case serializeFMUState i b n =>
    have hr : (serializeFMUState m w.inst (w.slots i) (w.bufs b) n).All fun x =>
        ∀ bb s, x.2.2 = some bb → bb.image = some s → P s := by
      unfold serializeFMUState begin beginFunction
      split
      · split
        · simpa using h.bufs b
        · next s es =>
          split
          · simpa using h.bufs b
          · unfold Buffer.store
            split
            · simp
            · split
              · simp
              · simp only [Outcome.ret_bind, Outcome.all_ret]
                intro bb s' e e'
                cases e; cases e'
                exact h.slots _ _ es
      · simpa using h.bufs b
    obtain ⟨y, ey, e⟩ := Outcome.bind_eq_ret.1 e
    have := hr y ey
    cases e
    refine ⟨hi, h.slots, ?_⟩
    intro j bb s e e'
    simp only at e
    split at e
    · exact this bb s e e'
    · exact h.bufs j bb s e e'
  all_goals exact keep e

end FMI3
end Verif
