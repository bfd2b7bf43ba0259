import Verif.Proofs.Session

/-!
# C41, C49: call histories and threads

Specification: `(session calls).run Globals.fresh` is a new process that makes the given calls one after the other,
catching exceptions; its first component is the list of the replies, its second the shared objects at the end.
`alone c` is the reply to the call `c` made as the first and only call of a new process.
`Machine.start sessions` is a new process with one thread per list of calls, and `runSchedule` lets the threads
make their steps in the given order.
-/

namespace NumberParser.Props

open NumberParser

/-- The reply to a call that is the only call of a new process. -/
def alone (c : Call) : Res Reply := (c.prog.run Globals.fresh).1

/-- The shared objects hold what the data files say, and the class attributes are still empty. -/
def TablesIntact (g : Globals) : Prop :=
  (∀ language info, (language, info) ∈ g.modules → dataModule language = some info) ∧
    g.classAttrs = Globals.fresh.classAttrs

theorem alone_reply (c : Call) : alone c = c.reply := ((call_yields c).run fresh_good).1

/-- **C41** After any history of calls, a call returns what it returns alone in a new process, and the shared tables
are what the data files say. -/
theorem c41_history (history : List Call) :
    ((session history).run Globals.fresh).1 = .ok (history.map alone) ∧
      TablesIntact ((session history).run Globals.fresh).2 := by
  obtain ⟨h1, h2⟩ := (session_yields history).run fresh_good
  refine ⟨?_, fun l i hm => h2.1 (l, i) hm, h2.2⟩
  rw [h1, List.map_congr_left (fun c _ => alone_reply c)]

/-- **C41** The same from any point of a history: whatever calls were made before, one more call made then returns
what it returns alone. -/
theorem c41_next_call (history : List Call) (c : Call) :
    (c.prog.run ((session history).run Globals.fresh).2).1 = alone c := by
  obtain ⟨_, h2⟩ := (session_yields history).run fresh_good
  rw [alone_reply]
  exact ((call_yields c).run h2).1

/-- **C41** The replies of a process are the values of the functions all other theorems are about. -/
theorem c41_values (s : PyStr) (language : Option PyStr) :
    alone (.parse s language) = (do return .text (some (← parse s language))) ∧
    alone (.number s language) = (do return .number (← parseNumber s language)) ∧
    alone (.ordinal s language) = (do return .number (← parseOrdinal s language)) ∧
    alone (.fraction s language) = (do return .text (← parseFraction s language)) :=
  ⟨alone_reply _, alone_reply _, alone_reply _, alone_reply _⟩

set_option maxRecDepth 100000 in
/-- Three calls, the second raising: replies and the modules imported. -/
example :
    let r := (session [.number u!"forty two" (some u!"en"), .number u!"dos" (some u!"xx"), .parse u!"dos gatos" (some u!"es")]).run Globals.fresh
    r.1 = .ok [.ok (.number (some 42)), .error .unsupportedLanguage, .ok (.text (some u!"2 gatos"))] ∧
      r.2.modules.map (fun m => m.1) = [u!"en", u!"es"] := by decide +kernel

/-- **C49** Threads: at every point of every schedule the shared tables are what the data files say; a thread that
has come to its end has got exactly the replies its calls get alone; and it has come to its end once it has been
scheduled seven times for each of its calls. -/
theorem c49_threads (sessions : List (List Call)) (schedule : List Nat) :
    TablesIntact ((Machine.start sessions).runSchedule schedule).shared ∧
    ∀ (i : Nat) (calls : List Call), sessions[i]? = some calls →
      (∀ r, ((Machine.start sessions).runSchedule schedule).threads[i]? = some (.done r) → r = .ok (calls.map alone)) ∧
      (7 * calls.length ≤ schedule.count i →
        ((Machine.start sessions).runSchedule schedule).threads[i]? = some (.done (.ok (calls.map alone)))) := by
  obtain ⟨hg, hlen, ht⟩ := schedule_inv (start_inv sessions) schedule
  refine ⟨⟨fun l i hm => hg.1 (l, i) hm, hg.2⟩, ?_⟩
  intro i calls hcs
  have hi : i < sessions.length := by
    rcases Nat.lt_or_ge i sessions.length with h | h
    · exact h
    · rw [List.getElem?_eq_none h] at hcs; cases hcs
  have e : calls.map alone = calls.map Call.reply := List.map_congr_left (fun c _ => alone_reply c)
  rw [e]
  constructor
  · intro r hr
    have hy := ht i _ calls hr hcs
    revert hy
    generalize 7 * (sessions.getD i []).length - schedule.count i = k
    intro hy
    cases k <;> exact hy
  · intro hk
    have hp : i < ((Machine.start sessions).runSchedule schedule).threads.length := by rw [hlen]; exact hi
    have hy := ht i _ calls (List.getElem?_eq_getElem hp) hcs
    have hz : 7 * (sessions.getD i []).length - schedule.count i = 0 := by
      rw [List.getD_eq_getElem?_getD, hcs, Option.getD_some]; omega
    simp only [hz] at hy
    rw [List.getElem?_eq_getElem hp]
    revert hy
    generalize ((Machine.start sessions).runSchedule schedule).threads[i] = p
    intro hy
    cases p with
    | done r => rw [show r = _ from hy]
    | step w n => exact absurd hy (by simp [Yields])

/-- Whether a thread has come to an end with the given replies. -/
def endedWith (p : Option (Prog (List (Res Reply)))) (r : Res (List (Res Reply))) : Bool :=
  match p with
  | some (.done r') => decide (r' = r)
  | _ => false

set_option maxRecDepth 100000 in
/-- Two interleaved threads. -/
example :
    let m := (Machine.start [[.number u!"forty two" (some u!"en"), .number u!"tres" (some u!"es")], [.fraction u!"one by two" (some u!"en")]]).runSchedule [0, 1, 1, 0]
    endedWith m.threads[0]? (.ok [.ok (.number (some 42)), .ok (.number (some 3))]) = true ∧
    endedWith m.threads[1]? (.ok [.ok (.text (some u!"1/2"))]) = true := by decide +kernel

end NumberParser.Props
