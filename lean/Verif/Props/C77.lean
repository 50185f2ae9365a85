import Verif.Lemmas.ThreadedOnce
import Verif.Props.C68
import Verif.Examples

/-!
# C77: the program with threads counts the same ticks as the sequential program

Full statement: for every schedule of the threads, the program examples/scs_threaded.c makes no use of the FMU after it has been released, every call
returns `fmi3OK`, and when the threads have ended, the FMU shows the ticks of the schedule of C68. Only parts of this are true: see the theorems `_violated`.
-/

namespace Verif
open Importer.CoSim Importer.Sync Importer.Threads

/-- **C77** (`_partial`: until the main program has finished its loop, and only for the two periodic clocks): for every schedule of the main program and of the
threads it starts, however they overtake each other, no call is refused, and the FMU shows as many ticks of each clock as its partition has been activated. When
all threads have ended, these are the ticks of the schedule in all seconds so far: nothing is lost and nothing is counted twice, although the threads of one
clock share their argument. If the main program finishes when all threads have ended, nothing happens any more. -/
theorem C77_partial {fuel stop : Nat} : ∃ s₀, begin Clocks.model fuel stop = .ret (some s₀) ∧
    ∀ turns : List Turn, 1000 * turns.length < 2 ^ 31 → turns.count .main ≤ 3 * stop + 1 →
      ∃ s : TProg, s₀.run Clocks.model fuel stop turns = .ret s ∧ (∀ p a st, (p, a, st) ∈ s.calls → st = .OK) ∧
        Shows s (activations s .one) (activations s .two) (activations s .three) ∧
        (Idle s → ∀ t, turns.count .main = 3 * t → t ≤ stop →
          activations s .one = t ∧ activations s .two = ticksBefore Second t ∧
          (t = stop → ∃ s', s'.alive = false ∧ ∀ more, s₀.run Clocks.model fuel stop (turns ++ .main :: .main :: .main :: more) = .ret s')) := by
  obtain ⟨s₀, e, h, hpos, -⟩ := begin_ok fuel stop
  refine ⟨s₀, e, fun turns hk hc => ?_⟩
  obtain ⟨s, e', g, hp⟩ := h.run (turns := turns) (fuel := fuel) (by omega) (by omega)
  refine ⟨s, e', fun p a st hmem => g.calls _ hmem, g.fmu.shows, fun hi t ht hts => ?_⟩
  have hp3 : s.pos = 3 * t := by omega
  have hb := g.bound
  have hm : s.main = .first ∧ s.time = t := by
    have hp3 := hp3
    unfold Prog.pos at hp3
    rcases g.unfinished with x | x | x | x <;> rw [x] at hp3 <;> simp at hp3 <;> first | exact ⟨x, by omega⟩ | omega
  have h1 := g.owed .one
  have h2 := g.owed .two
  rw [owed_idle hi, g.one] at h1
  rw [owed_idle hi, g.two] at h2
  simp only [hm.1, hm.2] at h1 h2
  refine ⟨by simpa using h1, (by simpa using h2 : activations s .two = before Second t), fun hst => ?_⟩
  obtain ⟨s', ha, hf⟩ := g.finish (fuel := fuel) (hp3.trans (by rw [hst])) hi
  refine ⟨s', ha, fun more => ?_⟩
  rw [run_append, e', Outcome.ret_bind]
  exact hf more

/-- **C77** (`_partial`: for schedules in which the threads of a second have ended before the next second begins, as the priorities and `Sleep(950)` are meant to
ensure): the FMU shows exactly the ticks of the schedule of C68, and in particular the countdown clock ticks exactly once. -/
theorem C77_paced_partial {fuel stop : Nat} : ∃ s₀, begin Clocks.model fuel stop = .ret (some s₀) ∧
    ∀ turns : List Turn, 1000 * turns.length < 2 ^ 31 → turns.count .main ≤ 3 * stop + 1 → Paced fuel stop s₀ turns →
      ∃ s : TProg, s₀.run Clocks.model fuel stop turns = .ret s ∧
        (Idle s → ∀ t, turns.count .main = 3 * t → t ≤ stop → Shows s t (ticksBefore Second t) (ticksBefore (· = 4) t)) := by
  obtain ⟨s₀, e, h, hpos, hth, hq, hq', hc₀⟩ := begin_ok fuel stop
  refine ⟨s₀, e, fun turns hk hc hpace => ?_⟩
  have hp₀ : Phase s₀ := .before (by rw [hth]; decide) (by rw [Prog.fq, hq]; decide) (by rw [hq']; decide) (by rw [hth]; rfl) (by rw [hth]; simp)
  obtain ⟨s, e', g, hp, hl, hph⟩ := Phase.run h (fun x => by rw [hth] at x; cases x) hp₀ hpos _ turns rfl hk hc hpace
  refine ⟨s, e', fun hi t ht hts => ?_⟩
  have hm : s.main = .first ∧ s.time = t := by
    have hp3 : s.pos = 3 * t := hp.trans ht
    unfold Prog.pos at hp3
    rcases g.unfinished with x | x | x | x <;> rw [x] at hp3 <;> simp at hp3 <;> first | exact ⟨x, by omega⟩ | omega
  have h1 := g.owed .one
  have h2 := g.owed .two
  have h3 := g.owed .three
  have ho := g.one
  rw [owed_idle hi, g.one] at h1
  rw [owed_idle hi, g.two] at h2
  rw [owed_idle hi] at h3
  simp [hm.1, hm.2] at h1 h2 ho
  have h4 : activations s .three = ticksBefore (· = 4) t := by
    rw [ticksBefore_four]
    cases hph with
    | before a1 a2 a3 a4 a5 => rw [if_pos (by omega)]; omega
    | during i todo a1 a2 a3 a4 =>
      obtain ⟨⟨th, hth, -, htd⟩, -⟩ := a2
      have := hi th (List.mem_of_getElem? hth)
      rw [htd] at this
      subst this
      simp [Announcing, body] at a3
    | after a1 a2 a3 a4 => rw [if_neg (by omega)]; omega
  have := g.fmu.shows
  rw [h1, h2, h4] at this
  exact this

/-! ### Schedules -/

/-- All threads in turn, until they have ended. -/
def allThreads (n : Nat) : List Turn := (List.range n).flatMap fun i => List.replicate 12 (.thread i)

/-- The main program makes its three steps, then the threads do everything. -/
def calmly (seconds : Nat) : List Turn := (List.range seconds).flatMap fun t => List.replicate 3 .main ++ allThreads (2 * t + 3)

/-- What the FMU shows after a schedule, and whether all threads have ended. -/
def shown (stop : Nat) (turns : List Turn) : Option (List Int × Bool) :=
  match begin (Clocks.model : Model XRat _) 0 stop with
  | .ret (some s) => match s.run Clocks.model 0 stop turns with
    | .ret s => match FMI3.step Clocks.model 0 s.w (.get .int32 (some [2001, 2002, 2003, 2004]) 4 (some ([0, 0, 0, 0] : List Int)) 4) with
      | .ret (_, .OK, .values .int32 (some l)) => some (l, s.threads.all fun th => th.todo.isEmpty)
      | _ => none
    | _ => none
  | _ => none

/-- Ten seconds with threads that keep pace: the last row of C68. -/
example : shown 10 (calmly 10) = some ([10, 4, 1, 15], true) := by decide +kernel

/-- Ten seconds in which all threads run at the end, but those of inClock1 in the reverse order: the periodic clocks are counted correctly. -/
example : (shown 10 (List.replicate 30 .main ++ (allThreads 20).reverse)).map (fun x => (x.1.take 2, x.2)) = some ([10, 4], true) := by decide +kernel

/-- **C77 is violated**: the main program does not wait for its threads. In the three seconds of the program (`DEFAULT_STOP_TIME`), a thread that gets its first
turn after the main program has finished calls a function of the FMU with the instance that has been released. -/
theorem C77_violated_end : ∃ s₀ : TProg, begin Clocks.model 0 3 = .ret (some s₀) ∧ s₀.run Clocks.model 0 3 (List.replicate 12 .main ++ [.thread 0]) = .ub := by
  obtain ⟨s₀, e, -⟩ := begin_ok 0 3
  refine ⟨s₀, e, ?_⟩
  have : (begin (Clocks.model : Model XRat _) 0 3 >>- fun o => match o with
    | some s => s.run Clocks.model 0 3 (List.replicate 12 .main ++ [.thread 0])
    | none => .hang) = .ub := Outcome.ub_of_isUb (by decide +kernel)
  rw [e] at this
  exact this

/-- **C77 is violated**: the thread of inClock1 reads its argument after the main program has set it for the next second. If the threads of the first five seconds
run when the fifth second has begun, each of them announces inClock3, and the clock ticks five times instead of once; if they run one second later, none of them
announces it, and it never ticks, although the main program has passed the second 4. In both cases all threads have ended. -/
theorem C77_violated_count : shown 10 (List.replicate 15 .main ++ allThreads 20) = some ([5, 2, 5, 12], true) ∧
    shown 10 (List.replicate 18 .main ++ allThreads 20) = some ([6, 2, 0, 8], true) ∧
    shown 10 (calmly 5) = some ([5, 2, 1, 8], true) ∧ shown 10 (calmly 6) = some ([6, 2, 1, 9], true) := by
  refine ⟨?_, ?_, ?_, ?_⟩ <;> decide +kernel

/-- The hypotheses of the theorems are met by schedules in which several threads are under way at once. -/
example : ∃ s₀ : TProg, begin Clocks.model 0 10 = .ret (some s₀) ∧ ∃ s : TProg,
    s₀.run Clocks.model 0 10 [.main, .main, .main, .main, .thread 1, .main, .thread 2, .thread 0, .thread 1] = .ret s ∧ ¬ Idle s ∧ s.threads.length = 4 ∧
    Shows s 2 0 0 := by
  obtain ⟨s₀, e, h⟩ := C77_partial (fuel := 0) (stop := 10)
  refine ⟨s₀, e, ?_⟩
  obtain ⟨s, e', -, hs, -⟩ := h [.main, .main, .main, .main, .thread 1, .main, .thread 2, .thread 0, .thread 1] (by decide) (by decide)
  have : (begin (Clocks.model : Model XRat _) 0 10 >>- fun o => match o with
    | some s => s.run Clocks.model 0 10 [.main, .main, .main, .main, .thread 1, .main, .thread 2, .thread 0, .thread 1]
    | none => .hang).is (fun s => s.threads.any (fun th => !th.todo.isEmpty) && s.threads.length == 4 && activations s .one == 2 && activations s .two == 0 &&
      activations s .three == 0) = true := by decide +kernel
  rw [e, Outcome.ret_bind] at this
  simp only [] at this
  rw [e'] at this
  simp only [Outcome.is, Bool.and_eq_true, beq_iff_eq] at this
  obtain ⟨⟨⟨⟨h1, h2⟩, h3⟩, h4⟩, h5⟩ := this
  rw [h3, h4, h5] at hs
  refine ⟨s, e', fun hi => ?_, h2, hs⟩
  obtain ⟨th, hm, ht⟩ := List.any_eq_true.1 h1
  rw [hi th hm] at ht
  cases ht

/-- A schedule in which the threads keep pace, checked at every step. -/
def isPaced (stop : Nat) (turns : List Turn) : Bool :=
  (List.range turns.length).all fun n => !((turns.take n).count .main % 3 == 0) || turns[n]? != some .main ||
    (begin (Clocks.model : Model XRat _) 0 stop >>- fun o => match o with
    | some s => s.run Clocks.model 0 stop (turns.take n)
    | none => .hang).is fun s => s.threads.all fun th => th.todo.isEmpty

theorem paced_of {stop : Nat} {turns : List Turn} (h : isPaced stop turns = true) {s₀ : TProg} (e : begin Clocks.model 0 stop = .ret (some s₀)) :
    Paced 0 stop s₀ turns := by
  intro done rest hd hc s hs th hth
  have := List.all_eq_true.1 h done.length (by rw [hd]; simp)
  have ht : turns.take done.length = done := by rw [hd]; simp
  have hg : turns[done.length]? = some .main := by rw [hd]; simp
  rw [ht, hg, e, Outcome.ret_bind] at this
  simp only [] at this
  rw [hs] at this
  simp [hc, Outcome.is] at this
  exact this th hth

/-- The hypotheses of `C77_paced_partial` are met: after five seconds, in which up to two threads at once take turns, inClock3 has ticked once. -/
example : ∃ s₀ : TProg, begin Clocks.model 0 10 = .ret (some s₀) ∧
    Paced 0 10 s₀ ([.main, .main, .thread 1, .thread 0, .thread 1, .main] ++ allThreads 2 ++ (List.range 4).flatMap fun t => List.replicate 3 .main ++ allThreads (2 * t + 5)) := by
  obtain ⟨s₀, e, -⟩ := begin_ok 0 10
  exact ⟨s₀, e, paced_of (by decide +kernel) e⟩

example : shown 10 ([.main, .main, .thread 1, .thread 0, .thread 1, .main] ++ allThreads 2 ++ (List.range 4).flatMap fun t => List.replicate 3 .main ++ allThreads (2 * t + 5)) =
    some ([5, 2, 1, 8], true) := by decide +kernel

end Verif
