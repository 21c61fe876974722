import Verif.Proofs.Tools

/-!
# The PMTU functions in the finest steps
So that every network operation of a call can be located.
-/

namespace Lightway
open Spec

/-- Reading from and writing to the network. -/
def NetEff : Effect → Prop
  | .outsideWrite .. | .sslOut .. | .sslIn .. => True
  | _ => False

/-- Finest steps of the code that talks to the TLS library. -/
inductive Fine (env : Env) : Conn → Conn → Prop
  | io (c : Conn) (r : IoReq) (hnv : ¬Vetoed c.log) : Fine env c (ioStep env c r)
  | err (c : Conn) (e : SslErr) : Fine env c { c with wolfError := e }
  | pm (c : Conn) (pm : Pmtud) : Fine env c { c with pmtud := pm }
  | probe (c : Conn) (pm : Pmtud) (mtu : Nat) (ok : Bool) (hs : c.state = .online) (h1 : 512 ≤ mtu) (h2 : mtu ≤ 1416) :
      Fine env c { c.emit (.sslCall (.write (probeMsg c.pingNextId mtu)) ok) with
        pmtud := pm, pingNextId := (c.pingNextId + 1) % 65536 }
  | note (c : Conn) (e : Effect) (h : PEff c e) (hn : ¬NetEff e)
      (hw : ∀ m ok, e ≠ .sslCall m ok) (hg : ∀ p r, e ≠ .pluginEgress p r) : Fine env c (c.emit e)

theorem Star.updP {env : Env} (c : Conn) (pm : Pmtud) : Star (Fine env) c { c with pmtud := pm } := .one (.pm c pm)
theorem Star.note {env : Env} (c : Conn) {e : Effect} (h : PEff c e) (hn : ¬NetEff e := by simp [NetEff])
    (hw : ∀ m ok, e ≠ .sslCall m ok := by simp) (hg : ∀ p r, e ≠ .pluginEgress p r := by simp) :
    Star (Fine env) c (c.emit e) := .one (.note c e h hn hw hg)

theorem ioRun_fine (env : Env) (c : Conn) (io : List IoReq) (hnv : ¬Vetoed c.log) : Star (Fine env) c (ioRun env c io) := by
  unfold ioRun
  induction io generalizing c with
  | nil => exact .refl c
  | cons r rest ih => exact (Star.one (.io c r hnv)).trans (ih _ (by cases r <;> exact id))

theorem pmtudChangeState_fine (env : Env) (c : Conn) (s : PmtudState) : Star (Fine env) c (pmtudChangeState c s) := by
  unfold pmtudChangeState
  simp only
  have h := Star.updP (env := env) c { c.pmtud with state := s }
  split
  · rename_i hb; exact h.trans (Star.note _ hb)
  · exact h

theorem sendProbe_fine (env : Env) (c : Conn) (mtu : Nat) : Star (Fine env) c (sendProbe env c mtu).1 := by
  unfold sendProbe
  split
  · exact .refl c
  · rename_i hst
    split
    · exact .refl c
    · rename_i hm
      simp only [minPlpmtu, maxPlpmtu] at hm
      simp only
      have h1 : Star (Fine env) c (sendMessage env { c with
          pmtud := { c.pmtud with probeCount := (c.pmtud.probeCount + 1) % 256, probingSize := mtu }
          pingNextId := (c.pingNextId + 1) % 65536 } (probeMsg c.pingNextId mtu)).1 := by
        obtain ⟨e, h⟩ := sendMessage_eq env { c with
          pmtud := { c.pmtud with probeCount := (c.pmtud.probeCount + 1) % 256, probingSize := mtu }
          pingNextId := (c.pingNextId + 1) % 65536 } (probeMsg c.pingNextId mtu)
        rw [h]
        exact ((Star.one (.probe c _ mtu _ (by simpa using hst) (by omega) (by omega))).trans (ioRun_fine env _ _ id)).tail (.err _ e)
      generalize sendMessage env _ (probeMsg c.pingNextId mtu) = q at h1 ⊢
      obtain ⟨c1, rc⟩ := q
      simp only at h1 ⊢
      by_cases hrc : rc = .success
      · simp only [hrc, ne_eq, not_true_eq_false, if_false]
        have h2 := h1.trans (Star.updP c1 { c1.pmtud with pendingId := c.pingNextId })
        split
        · rename_i hb; exact h2.trans (Star.note _ hb)
        · exact h2
      · simp only [hrc, ne_eq, not_false_eq_true, if_true]
        split
        · rename_i hb; exact h1.trans (Star.note _ hb)
        · exact h1

theorem retryProbe_fine (env : Env) (c : Conn) (ms : Nat) : Star (Fine env) c (retryProbe env c ms).1 := by
  unfold retryProbe
  by_cases h : c.cbs.pmtudTime = true
  · rw [if_pos h]
    exact (Star.note c (e := .pmtudTime _ _) h).trans (Star.updP _ _)
  · rw [if_neg h]
    exact Star.updP _ _

theorem startBaseProbing_fine (env : Env) (c : Conn) : Star (Fine env) c (startBaseProbing env c).1 := by
  unfold startBaseProbing
  split
  · exact .refl c
  · exact .refl c
  · exact ((pmtudChangeState_fine env c .base).trans (Star.updP _ _)).trans (sendProbe_fine env _ _)

theorem baseConfirmed_fine (env : Env) (c : Conn) : Star (Fine env) c (baseConfirmed env c).1 := by
  unfold baseConfirmed
  split
  · exact ((pmtudChangeState_fine env c .searching).trans (Star.updP _ _)).trans (sendProbe_fine env _ _)
  · exact .refl c

theorem confirmBaseFailed_fine (env : Env) (c : Conn) : Star (Fine env) c (confirmBaseFailed env c).1 := by
  unfold confirmBaseFailed
  split
  · exact (pmtudChangeState_fine env c .error).trans (retryProbe_fine env _ _)
  · exact .refl c

theorem searchCompleted_fine (env : Env) (c : Conn) : Star (Fine env) c (searchCompleted env c).1 := by
  unfold searchCompleted
  split
  · exact ((Star.updP c _).trans (pmtudChangeState_fine env _ _)).trans (retryProbe_fine env _ _)
  · exact .refl c

theorem blackholeDetected_fine (env : Env) (c : Conn) : Star (Fine env) c (blackholeDetected env c).1 := by
  unfold blackholeDetected
  split
  · exact ((pmtudChangeState_fine env c .base).trans (Star.updP _ _)).trans (sendProbe_fine env _ _)
  · exact .refl c

theorem handleProbeAck_fine (env : Env) (c : Conn) (id : Nat) :
    Star (Fine env) c (handleProbeAck env c id).1 := by
  unfold handleProbeAck
  split
  · exact .refl c
  · have h0 : Star (Fine env) c (if c.cbs.pmtudTime then (pmtudTimeCb env c 0).1 else c) := by
      split
      · rename_i hb; exact Star.note _ hb
      · exact .refl c
    simp only
    generalize (if c.cbs.pmtudTime then (pmtudTimeCb env c 0).1 else c) = c1 at h0 ⊢
    have h1 := h0.trans (Star.updP c1 { c1.pmtud with pendingId := 0, probeCount := 0 })
    split
    · exact h1.trans (baseConfirmed_fine env _)
    · split
      · exact h1.trans (searchCompleted_fine env _)
      · exact h1.trans (sendProbe_fine env _ _)
    · exact h1.trans (baseConfirmed_fine env _)
    · exact h1.trans (retryProbe_fine env _ _)
    · exact h1

theorem handleProbeTimeout_fine (env : Env) (c : Conn) :
    Star (Fine env) c (handleProbeTimeout env c).1 := by
  unfold handleProbeTimeout
  split
  · exact sendProbe_fine env c _
  · simp only
    have h1 := Star.updP (env := env) c { c.pmtud with pendingId := 0, probeCount := 0 }
    split
    · split
      · exact h1.trans (sendProbe_fine env _ _)
      · exact h1.trans (confirmBaseFailed_fine env _)
    · split
      · exact (h1.trans (Star.updP _ _)).trans (sendProbe_fine env _ _)
      · split
        · exact h1.trans (Star.note _ rfl)
        · exact (h1.trans (Star.updP _ _)).trans (searchCompleted_fine env _)
    · exact h1.trans (blackholeDetected_fine env _)
    · exact h1.trans (retryProbe_fine env _ _)
    · exact h1

/-- Fine steps stay within the frame. -/
theorem Fine.pFrame {env : Env} {c c' : Conn} (h : Fine env c c') : PFrame c c' := by
  cases h with
  | io r => exact (ioStep_frame env c r).pFrame
  | err e => exact ⟨[], c.packetSeen, c.streamLeft, e, c.pmtud, c.pingNextId, rfl, by simp⟩
  | pm pm => exact .updP c pm
  | probe pm mtu ok => exact (PFrame.emit c (e := .sslCall (.write _) ok) trivial).trans (.upd _ pm _)
  | note e h _ _ => exact .emit c h

theorem Star.fineFrame {env : Env} {c c' : Conn} (h : Star (Fine env) c c') : PFrame c c' := by
  induction h with
  | refl => exact .refl _
  | tail _ s ih => exact ih.trans s.pFrame

end Lightway
