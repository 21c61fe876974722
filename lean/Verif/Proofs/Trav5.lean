import Verif.Proofs.Trav4

/-!
# Inside packets, nudge, and the invariant of whole runs
-/

namespace Lightway
open Spec

theorem fragLoop_star (env : Env) (size id : Nat) (h0 : 0 < size) (h1 : size + 7 ≤ 1500)
    (c : Conn) (off : Nat) (pkt : Bytes) (hs : c.state = .online) :
    M env .insidePacket c (fragLoop env c size id off pkt).1 := by
  have one : ∀ (c : Conn) (off : Nat) (mf : Bool) (d : Bytes), c.state = .online → d.length + 7 ≤ 1500 →
      M env .insidePacket c (sendMessage env c (fragMsg id off mf d)).1 := by
    intro c off mf d hs hd
    have hsh := fragMsg_shape id off mf hd
    refine sendMessage_star env _ c _ (fun hi => ⟨hsh.1, ?_⟩) (by rw [hsh.2.1]; decide)
    rw [hsh.2.1]
    exact ⟨by rw [hi.st]; exact hs, hi.api, hsh.2.2⟩
  fun_induction fragLoop env c size id off pkt with
  | case1 => exact .refl _
  | case2 => omega
  | case3 c off pkt _ _ d hd =>
    exfalso
    have : d.length ≤ size := by simp only [d]; rw [List.length_take]; omega
    simp only [maxWireMtu] at hd; omega
  | case4 c off pkt _ _ d hd c1 rc he hne =>
    have := one c off (decide (pkt.length > size)) d hs (by simp only [maxWireMtu] at hd; omega)
    rw [he] at this; exact this
  | case5 c off pkt _ _ d hd c1 rc he hne ih =>
    have := one c off (decide (pkt.length > size)) d hs (by simp only [maxWireMtu] at hd; omega)
    have n := sendMessage_n env c (fragMsg id off (decide (pkt.length > size)) d)
    rw [he] at this n; exact this.trans (ih (by rw [n.state]; exact hs))

theorem effectivePmtu_range {c : Conn} (h : PmRange c.pmtud) :
    506 ≤ effectivePmtu c ∧ effectivePmtu c ≤ 1416 := by
  unfold effectivePmtu
  split
  · simp [maxMtu]
  · rename_i hn
    simp only [not_or] at hn
    rcases h.2.1 with h | h
    · exact absurd h hn.1
    · exact h

theorem insidePacket_star (env : Env) (c : Conn) (pkt : Bytes) (hp : PmRange c.pmtud)
    (hj : JustCalled .insidePacket c.log) :
    M env .insidePacket c (insidePacket env c pkt).1 := by
  have hr := effectivePmtu_range hp
  unfold insidePacket
  split
  · exact .refl c
  · rename_i hon
    split
    · exact .refl c
    · simp only
      split
      · exact .refl c
      · split
        · exact .refl c
        · split
          · rename_i hx
            obtain ⟨r, hr⟩ := Option.isSome_iff_exists.mp (clampMss_isSome pkt (effectivePmtu c - 40))
            rw [hr] at hx; cases hx
          · split
            · exact .refl c
            · rename_i p rc _ _
              generalize sizeSub c.outsideMtu packetOverhead = cap
              have h1 := ingress_star env .insidePacket c c.insidePlugins p cap hj
              generalize c.insidePlugins.ingress c.log p cap = q at h1 ⊢
              obtain ⟨log', p', rc'⟩ := q
              simp only at h1 ⊢
              generalize effectivePmtu c = pm at hr ⊢
              have hs1 : ({ c with log := log' } : Conn).state = .online := by simpa using hon
              generalize ({ c with log := log' } : Conn) = c1 at h1 hs1 ⊢
              split
              · exact h1
              · split
                · exact h1
                · split
                  · exact h1
                  · split
                    · split
                      · exact h1
                      · rename_i hl
                        have hsh := dataMsg_shape c1 (p := p') (by simp only [maxWireMtu] at hl; omega)
                        refine h1.trans (sendMessage_star env _ c1 _ (fun hi => ⟨hsh.1, ?_⟩) (by rw [hsh.2.1]; decide))
                        rw [hsh.2.1]
                        exact ⟨by rw [hi.st]; exact hs1, hi.api, hsh.2.2⟩
                    · unfold fragAndSend
                      simp only
                      split
                      · exact h1
                      · have h2 := h1.tail (.fragNext c1 ((c1.fragNextId + 1) % 65536) rfl (Nat.mod_lt _ (by omega)))
                        exact h2.trans (fragLoop_star env _ _ (by omega) (by omega) _ _ _ hs1)

/-- `nudge` after clearing the flag. -/
theorem nudge_star (env : Env) (c : Conn) (hi : Inv env (some .nudge) { c with nudgeTimerRunning := false }) :
    M env .nudge { c with nudgeTimerRunning := false } (nudge env c).1 := by
  have e : nudge env c = nudge env { c with nudgeTimerRunning := false } := rfl
  have f : ({ c with nudgeTimerRunning := false } : Conn).nudgeTimerRunning = false := rfl
  rw [e]
  clear e
  generalize ({ c with nudgeTimerRunning := false } : Conn) = c1 at hi f ⊢
  have f' : ({ c1 with nudgeTimerRunning := false } : Conn) = c1 := by cases c1; simp_all
  unfold nudge
  simp only [f']
  split
  · rename_i hs
    obtain ⟨h, w, r, _, _, _, _⟩ := sendAuth_star env .nudge c1 (.inr (.inr rfl)) (fun h => by rw [hs] at h; cases h)
    exact h.trans (updateTimeout_star env _ _ (fun he => by
      rw [w]; exact hi.wolf_state (by simp [hs]) (by simp [hs]) he)).1
  · rename_i hs
    have hw : c1.wolfSet = false → (sslDo env c1 .gotTimeout).2 = nullSslRes := by
      intro h; simp [sslDo, h]
    have h1 := sslDo_star env .nudge c1 .gotTimeout
    have n1 := sslDo_n env c1 .gotTimeout
    generalize sslDo env c1 .gotTimeout = q at h1 n1 hw ⊢
    obtain ⟨c2, r⟩ := q
    simp only at h1 n1 hw ⊢
    have hw2 : r.ok = true ∨ r.err = .wantRead ∨ r.err = .wantWrite → c2.wolfSet = true := by
      intro h
      rw [n1.wolfSet]
      cases hx : c1.wolfSet
      · rw [hw hx] at h; simp [nullSslRes] at h
      · rfl
    split
    · split
      · rename_i he; exact h1.trans (updateTimeout_star env _ c2 (fun _ => hw2 (.inr (.inl he)))).1
      · rename_i he; exact h1.trans (updateTimeout_star env _ c2 (fun _ => hw2 (.inr (.inr he)))).1
      · exact h1.trans (setState_star env _ c2 _ (fun _ => .inr ⟨rfl, by rw [n1.state]; exact hs⟩))
    · rename_i he
      exact h1.trans (updateTimeout_star env _ c2 (fun _ => hw2 (.inl (by simpa using he)))).1

/-- The invariant does not depend on which call was last. -/
theorem Inv.api_emit {env : Env} {o : Option Api} {c : Conn} (hi : Inv env o c) (a : Api)
    (ha : a ≠ .nudge) : Inv env (some a) (c.emit (.api a)) := by
  refine ⟨rfl, hi.2, hi.3, ?_, hi.5, hi.6, ?_, ?_, ⟨⟨trivial, trivial⟩, hi.9⟩, hi.10, hi.11, hi.12, hi.13, ?_, hi.15⟩
  · refine Eq.trans ?_ hi.nudge
    cases a <;> first | rfl | exact absurd rfl ha
  · intro h
    have := hi.due h
    cases a <;> first | exact this | rfl
  · intro h
    apply hi.clos
    cases a <;> first | exact h | cases h
  · intro he s hs
    exact hi.ub he s (by simpa [Conn.emit] using hs)

theorem Inv.api_nudge {env : Env} {o : Option Api} {c : Conn} (hi : Inv env o c) :
    Inv env (some .nudge) { c.emit (.api .nudge) with nudgeTimerRunning := false } :=
  ⟨rfl, hi.2, hi.3, rfl, hi.5, hi.6, hi.7, hi.8, ⟨⟨trivial, trivial⟩, hi.9⟩, hi.10, hi.11, hi.12, hi.13,
    fun he s hs => hi.ub he s (by simpa [Conn.emit] using hs), hi.15⟩

theorem Inv.ret {env : Env} {a : Api} {c : Conn} (hi : Inv env (some a) c) (rc : RC)
    (h : rc = .success → a = .disconnect → c.state = .disconnected ∧ c.cbs.insideWrite = false ∧
      c.cbs.outsideWrite = false) : Inv env (some a) (c.emit (.ret rc)) := by
  refine ⟨hi.1, hi.2, hi.3, hi.4, hi.5, hi.6, hi.7, ?_, ⟨⟨trivial, trivial⟩, hi.9⟩, hi.10, hi.11, hi.12, hi.13,
    fun he s hs => hi.ub he s (by simpa [Conn.emit] using hs), hi.15⟩
  intro hc
  by_cases hs : rc = .success
  · subst hs
    simp only [Conn.emit, closed, hi.api] at hc
    split at hc
    · rename_i e; exact h rfl (by simpa using e)
    · exact hi.clos hc
  · apply hi.clos
    simpa [Conn.emit, closed, hs] using hc

/-- The connection when a call starts (two calls write a field before anything else). -/
def entry (c : Conn) : Op → Conn
  | .nudge => { c.emit (.api .nudge) with nudgeTimerRunning := false }
  | .scheduleReneg => { c.emit (.api .scheduleReneg) with renegDue := true }
  | op => c.emit (.api op.api)

theorem entry_inv {env : Env} {o : Option Api} {c : Conn} (hi : Inv env o c) (op : Op) :
    Inv env (some op.api) (entry c op) := by
  cases op
  case nudge => exact hi.api_nudge
  case scheduleReneg =>
    have h := hi.api_emit .scheduleReneg (by simp)
    exact ⟨h.1, h.2, h.3, h.4, h.5, h.6, fun _ => rfl, h.8, h.9, h.10, h.11, h.12, h.13, h.14, h.15⟩
  all_goals exact hi.api_emit _ (by simp [Op.api])

/-- Every call decomposes into micro steps. -/
theorem exec_star (env : Env) (o : Option Api) (c : Conn) (op : Op) (hi : Inv env o c) :
    M env op.api (entry c op) (exec env (c.emit (.api op.api)) op).1 := by
  have h := entry_inv hi op
  by_cases hset : op.api = .setter
  · have e : entry c op = c.emit (.api op.api) := by cases op <;> simp_all [Op.api, entry]
    rw [e, hset] at h
    rw [e, hset]
    exact setter_star env _ op hset ⟨_, rfl⟩ h.buf
  · cases op <;> simp only [Op.api, reduceCtorEq, not_true_eq_false, not_false_eq_true] at hset
    case clientConnect ctx i o => exact (clientConnect_star env _ ctx i o ⟨_, rfl⟩).1
    case serverConnect ctx i o => exact (serverConnect_star env _ ctx i o ⟨_, rfl⟩).1
    case disconnect => exact (disconnect_star env (c.emit (.api .disconnect))).1
    case insidePacket p => exact insidePacket_star env _ p h.pm ⟨[], _, rfl, by simp⟩
    case outsideData b rs => exact outsideData_star env _ b rs h ⟨_, rfl⟩
    case nudge => exact nudge_star env _ h
    case keepalive => exact keepalive_star env _
    case sendServerConfig b => exact sendServerConfig_star env _ b
    case scheduleReneg => exact .refl _
    case rotateSession => exact rotateSession_star env _
    case startPmtud => exact startPmtud_star env _
    case pmtudTimeout => exact pmtudTimeout_star env _

theorem exec_inv (env : Env) (o : Option Api) (c : Conn) (op : Op) (hi : Inv env o c) :
    Inv env (some op.api) (exec env (c.emit (.api op.api)) op).1 ∧
    (op.api = .disconnect → (exec env (c.emit (.api op.api)) op).2 = .success →
      (exec env (c.emit (.api op.api)) op).1.state = .disconnected ∧
      (exec env (c.emit (.api op.api)) op).1.cbs.insideWrite = false ∧
      (exec env (c.emit (.api op.api)) op).1.cbs.outsideWrite = false) := by
  refine ⟨(exec_star env o c op hi).inv (entry_inv hi op), ?_⟩
  cases op <;> simp only [Op.api, exec, reduceCtorEq, false_implies]
  exact fun _ => (disconnect_star env (c.emit (.api .disconnect))).2

theorem step_inv (env : Env) (o : Option Api) (c : Conn) (op : Op) (hi : Inv env o c) :
    Inv env (some op.api) (step env c op).1 := by
  have h := exec_inv env o c op hi
  exact h.1.ret _ (fun h1 h2 => h.2 h2 h1)

theorem create_inv (env : Env) : Inv env none Conn.create := by
  refine ⟨rfl, rfl, rfl, rfl, rfl, by simp [Conn.create, firstSeen], by simp [Conn.create],
    by simp [Conn.create, closed], trivial, by simp [Conn.create], by simp [Conn.create],
    by simp [Conn.create], ?_, by simp [Conn.create], rfl⟩
  exact ⟨by simp [Conn.create], by simp [Conn.create]⟩

/-- Running a list of calls from a given state. -/
def runFrom (env : Env) (c : Conn) (ops : List Op) : Conn :=
  ops.foldl (fun c op => (step env c op).1) c

theorem runFrom_inv (env : Env) (o : Option Api) (c : Conn) (ops : List Op) (hi : Inv env o c) :
    ∃ o', Inv env o' (runFrom env c ops) := by
  induction ops generalizing o c with
  | nil => exact ⟨o, hi⟩
  | cons op rest ih => exact ih _ _ (step_inv env o c op hi)

theorem run_inv (env : Env) (ops : List Op) : ∃ o, Inv env o (run env ops) :=
  runFrom_inv env none Conn.create ops (create_inv env)

theorem run_append (env : Env) (ops ops' : List Op) :
    run env (ops ++ ops') = runFrom env (run env ops) ops' := by
  simp [run, runFrom]

end Lightway
