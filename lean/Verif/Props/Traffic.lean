import Verif.Props.Secret
import Verif.Props.Settings
import Verif.Model.Getters

/-!
# C107, C108: what the tunnelled packets show on the network

C107: two connections that are given packets of the same lengths (and IP version) behave the same, whatever is in the packets:
same results, states, events, callbacks and the same datagrams.  C108: with padding on, packets of different lengths that are
padded alike cannot be told apart either.  As in C106 the hypothesis is that the TLS library, the callbacks and the outside
plugins do not look inside the messages (`Spec.Sealed`), and there are no inside plugins.
-/

namespace Lightway
open Spec
variable {env : Env} {pad : Padding} {n : Nat} {inn : Bool}

/-- A call of which only what the observer may know is known. -/
def blindStep (env : Env) (d : Conn) : Op → Conn × RC
  | .insidePacket q =>
    let r := blindPacket env (d.emit (.api .insidePacket)) q
    (r.1.emit (.ret r.2), r.2)
  | op => step env d op

theorem blindStep_par (hE : Sealed (.both pad n inn) env) {op : Op} (ho : CallOf (.both pad n inn) op) {c : Conn}
    (h : Shut (.both pad n inn) c) (hf : ∀ p, op = .insidePacket p → Unseen pad n c) :
    Par (.both pad n inn) (step env c op) (blindStep env (mask (.both pad n inn) c) (hideOp (.both pad n inn) op)) := by
  by_cases hp : ∃ p, op = .insidePacket p
  · obtain ⟨p, rfl⟩ := hp
    have h1 : Shut (.both pad n inn) (c.emit (.api .insidePacket)) := h
    have hf1 : Unseen pad n (c.emit (.api .insidePacket)) := hf p rfl
    have k := blindPacket_par hE h1 hf1 p
    show Par _ ((insidePacket env (c.emit (.api .insidePacket)) p).1.emit (.ret (insidePacket env (c.emit (.api .insidePacket)) p).2),
      (insidePacket env (c.emit (.api .insidePacket)) p).2)
      ((blindPacket env ((mask (.both pad n inn) c).emit (.api .insidePacket)) (hidePkt pad n p)).1.emit
        (.ret (blindPacket env ((mask (.both pad n inn) c).emit (.api .insidePacket)) (hidePkt pad n p)).2),
       (blindPacket env ((mask (.both pad n inn) c).emit (.api .insidePacket)) (hidePkt pad n p)).2)
    exact Par.bind k (fun c rc h => ⟨rfl, h⟩)
  · have hp' : ∀ p, op = .insidePacket p → (Watch.both pad n inn).pay = none := fun p e => absurd ⟨p, e⟩ hp
    have k := step_par hE ho hp' h
    have e : blindStep env (mask (.both pad n inn) c) (hideOp (.both pad n inn) op) =
        step env (mask (.both pad n inn) c) (hideOp (.both pad n inn) op) := by
      cases op <;> first | rfl | exact absurd ⟨_, rfl⟩ hp
    rw [e]
    exact k

theorem hideOp_inside {op : Op} {p : Bytes} (h : hideOp (.both pad n inn) op = hideOp (.both pad n inn) (.insidePacket p)) :
    ∃ p', op = .insidePacket p' := by
  cases op <;> first | exact ⟨_, rfl⟩ | cases h

theorem pair_par (hE : Sealed (.both pad n inn) env) {ops ops' : List Op} (hc : ∀ op ∈ ops, CallOf (.both pad n inn) op)
    (hc' : ∀ op ∈ ops', CallOf (.both pad n inn) op) (same : ops.map (hideOp (.both pad n inn)) = ops'.map (hideOp (.both pad n inn)))
    {c c' : Conn} (h : Shut (.both pad n inn) c) (h' : Shut (.both pad n inn) c') (e : mask (.both pad n inn) c = mask (.both pad n inn) c')
    (fit : ∀ a p b, ops = a ++ .insidePacket p :: b → Unseen pad n (runFrom env c a)) :
    mask (.both pad n inn) (runFrom env c ops) = mask (.both pad n inn) (runFrom env c' ops') := by
  induction ops generalizing ops' c c' with
  | nil =>
    cases ops' with
    | nil => exact e
    | cons => cases same
  | cons op ops ih =>
    cases ops' with
    | nil => cases same
    | cons op' ops' =>
      simp only [List.map_cons, List.cons.injEq] at same
      obtain ⟨s1, s2⟩ := same
      have f : ∀ p, op = .insidePacket p → Unseen pad n c := fun p hp => fit [] p ops (by rw [hp]; rfl)
      have f' : ∀ p, op' = .insidePacket p → Unseen pad n c' := by
        intro p hp
        rw [hp] at s1
        obtain ⟨q, hq⟩ := hideOp_inside s1
        have k : Unseen pad n (mask (.both pad n inn) c) := f q hq
        rw [e] at k
        exact k
      have k := blindStep_par hE (hc op (by simp)) h f
      have k' := blindStep_par hE (hc' op' (by simp)) h' f'
      rw [e, s1] at k
      have e2 : mask (.both pad n inn) (step env c op).1 = mask (.both pad n inn) (step env c' op').1 := by
        have := k.1.symm.trans k'.1
        exact congrArg Prod.fst this
      exact ih (fun o ho => hc o (by simp [ho])) (fun o ho => hc' o (by simp [ho])) s2 k.2 k'.2 e2
        (fun a p b hab => fit (op :: a) p b (by rw [hab]; rfl))

theorem traffic_hidden (hE : Sealed (.both pad n inn) env) {ops ops' : List Op} (hc : ∀ op ∈ ops, CallOf (.both pad n inn) op)
    (hc' : ∀ op ∈ ops', CallOf (.both pad n inn) op) (same : ops.map (hideOp (.both pad n inn)) = ops'.map (hideOp (.both pad n inn)))
    (fit : ∀ a p b, ops = a ++ .insidePacket p :: b → Unseen pad n (run env a)) :
    mask (.both pad n inn) (run env ops) = mask (.both pad n inn) (run env ops') :=
  pair_par hE hc hc' same shut_create shut_create rfl fit

theorem outsideAuth_traffic (l : Log) : outsideAuth (hideLog (.traffic pad n) l) = outsideAuth l := by
  induction l with
  | nil => rfl
  | cons e l ih =>
    unfold outsideAuth hideLog at *
    rw [List.map_cons]
    cases e with
    | _ => simpa [hideEff, Watch.traffic, Watch.both, inMsg, shade] using ih

theorem mask_seen {c c' : Conn} (h : mask (.traffic pad n) c = mask (.traffic pad n) c') :
    outsideAuth c.log = outsideAuth c'.log ∧ datagrams c.log = datagrams c'.log ∧ c.state = c'.state := by
  have hl : hideLog (.traffic pad n) c.log = hideLog (.traffic pad n) c'.log := congrArg Conn.log h
  have h1 : outsideAuth c.log = outsideAuth c'.log := by rw [← outsideAuth_traffic (pad := pad) (n := n), hl, outsideAuth_traffic]
  exact ⟨h1, by rw [← datagrams_outsideAuth, h1, datagrams_outsideAuth], (show (mask (.traffic pad n) c).state = (mask (.traffic pad n) c').state by rw [h])⟩

/-- Two runs whose calls differ only in what is in the packets handed in (same lengths, same first byte; and in the bytes of
the credentials) have the same results, states, events, callbacks (but the authentication callbacks) and datagrams. -/
theorem C107_contents_do_not_show (hE : Sealed (.traffic .none 0) env) {ops ops' : List Op}
    (hc : ∀ op ∈ ops, CallOf (.traffic .none 0) op) (hc' : ∀ op ∈ ops', CallOf (.traffic .none 0) op)
    (same : ops.map (hideOp (.traffic .none 0)) = ops'.map (hideOp (.traffic .none 0))) :
    outsideAuth (run env ops).log = outsideAuth (run env ops').log ∧
    datagrams (run env ops).log = datagrams (run env ops').log ∧
    (run env ops).state = (run env ops').state :=
  mask_seen (traffic_hidden hE hc hc' same (fun _ _ _ _ h => absurd rfl h))

/-- And the messages given to the TLS library differ in the packets in them only. -/
theorem C107_only_in_messages (hE : Sealed (.traffic .none 0) env) {ops ops' : List Op}
    (hc : ∀ op ∈ ops, CallOf (.traffic .none 0) op) (hc' : ∀ op ∈ ops', CallOf (.traffic .none 0) op)
    (same : ops.map (hideOp (.traffic .none 0)) = ops'.map (hideOp (.traffic .none 0))) :
    hideLog (.traffic .none 0) (run env ops).log = hideLog (.traffic .none 0) (run env ops').log :=
  congrArg Conn.log (traffic_hidden hE hc hc' same (fun _ _ _ _ h => absurd rfl h))

/-! ## Lengths -/

theorem Micro.outsideMtu {env : Env} {a : Api} {c c' : Conn} (h : Micro env a c c') (ha : ¬IsConnect a) (hs : a ≠ .setter) :
    c'.outsideMtu = c.outsideMtu := by
  cases h with
  | io r => obtain ⟨l, ps, sl, we, pm, pn, e, -⟩ := (ioStep_frame env c r).pFrame; rw [e]
  | state s hne h => unfold setState; split <;> rfl
  | configure ctx h hq => exact absurd h ha
  | plugins i o h hq => exact absurd h ha
  | role b h => exact absurd h ha
  | version x y h hq => exact absurd h hs
  | mtu m h hm => exact absurd h hs
  | probeAck id h hs hm => obtain ⟨l, ps, sl, we, pm, pn, e, -⟩ := handleProbeAck_frame env c id; rw [e]
  | probeTimeout h => obtain ⟨l, ps, sl, we, pm, pn, e, -⟩ := handleProbeTimeout_frame env c; rw [e]
  | startBase h hs hd => obtain ⟨l, ps, sl, we, pm, pn, e, -⟩ := startBaseProbing_frame env c; rw [e]
  | _ => rfl

theorem Star.outsideMtu {env : Env} {a : Api} {c c' : Conn} (h : M env a c c') (ha : ¬IsConnect a) (hs : a ≠ .setter) :
    c'.outsideMtu = c.outsideMtu := by
  induction h with
  | refl => rfl
  | tail _ s ih => exact (s.outsideMtu ha hs).trans ih

/-- Calls that may change the settings, or the MTU. -/
def Spec.ResetsMtu : Op → Prop
  | .clientConnect .. | .serverConnect .. | .setProtocolVersion .. | .setOutsideMtu .. => True
  | _ => False

theorem step_outsideMtu {env : Env} {c : Conn} (hg : Good env c) (op : Op) (hr : ¬ResetsMtu op) :
    (step env c op).1.outsideMtu = c.outsideMtu := by
  obtain ⟨o, hi⟩ := hg.inv
  by_cases hs : op.api = .setter
  · cases op <;> simp only [Op.api, reduceCtorEq] at hs <;> first | exact absurd trivial hr | skip
    all_goals
      first
      | rfl
      | (simp only [step, exec, setAuthToken, setAuthBuffer, setSessionId]
         repeat' split
         all_goals rfl)
  · have h := Star.outsideMtu (exec_star env o c op hi) (by cases op <;> first | exact absurd trivial hr | (intro h; cases h <;> simp_all [Op.api])) hs
    have h0 : (entry c op).outsideMtu = c.outsideMtu := by cases op <;> rfl
    exact h.trans h0

theorem run_outsideMtu (env : Env) (pre later : List Op) (hl : ∀ op ∈ later, ¬ResetsMtu op) :
    (run env (pre ++ later)).outsideMtu = (run env pre).outsideMtu := by
  revert hl
  refine snoc_induct (P := fun later => (∀ op ∈ later, ¬ResetsMtu op) → (run env (pre ++ later)).outsideMtu = (run env pre).outsideMtu) ?_ ?_ later
  · intro _; rw [List.append_nil]
  · intro later op ih hl
    rw [← List.append_assoc, run_snoc, step_outsideMtu (run_good env _) op (hl op (by simp))]
    exact ih fun o h => hl o (by simp [h])

theorem fits_later (env : Env) (pre later : List Op) (server : Bool) (ctx : SslCtx) (i o : Chain)
    (hv : if server = true then isValidServer ctx (run env pre) = .success else isValidClient ctx (run env pre) = .success)
    (hp : ∀ p, .insidePacket p ∉ pre) (hl : ∀ op ∈ later, ¬ResetsMtu op) (hn : n < 1350)
    (hd : ctx.connType = .datagram → n ≤ 506) (hm : n + 114 ≤ (run env (pre ++ [connectOp server ctx i o])).outsideMtu)
    (a : List Op) (p : Bytes) (b : List Op) (hab : pre ++ connectOp server ctx i o :: later = a ++ .insidePacket p :: b) :
    Unseen ctx.padding n (run env a) := by
  have hm2 : (run env (pre ++ [connectOp server ctx i o])).outsideMtu < 65536 := by
    obtain ⟨-, hs⟩ := run_good env (pre ++ [connectOp server ctx i o])
    rcases hs.mtu with h | h
    · omega
    · exact h.2
  have hco : ∀ p, connectOp server ctx i o ≠ .insidePacket p := by intro p; unfold connectOp; cases server <;> simp
  obtain ⟨l1, rfl, hsub⟩ : ∃ l1, a = pre ++ connectOp server ctx i o :: l1 ∧ ∀ op ∈ l1, op ∈ later := by
    rcases List.append_eq_append_iff.mp hab with ⟨x, e1, e2⟩ | ⟨x, e1, e2⟩
    · cases x with
      | nil => simp at e2; exact absurd e2.1 (hco p)
      | cons y ys =>
        simp only [List.cons_append, List.cons.injEq] at e2
        refine ⟨ys, by rw [e1, e2.1], fun op h => ?_⟩
        rw [e2.2]
        simp [h]
    · cases x with
      | nil => simp at e2; exact absurd e2.1.symm (hco p)
      | cons y ys =>
        simp only [List.cons_append, List.cons.injEq] at e2
        exact absurd (by rw [e1, e2.1]; simp) (hp p)
  have hs := C78_settings env pre l1 server ctx i o hv (fun op h hr => hl op (hsub op h) (by cases op <;> first | trivial | exact hr.elim))
  have hmt := run_outsideMtu env (pre ++ [connectOp server ctx i o]) l1 (fun op h => hl op (hsub op h))
  rw [List.append_assoc] at hmt
  change (run env (pre ++ connectOp server ctx i o :: l1)).outsideMtu = _ at hmt
  obtain ⟨q, hi⟩ := run_inv env (pre ++ connectOp server ctx i o :: l1)
  generalize run env (pre ++ connectOp server ctx i o :: l1) = c at hs hmt hi
  intro _
  have e1 : c.padding = ctx.padding := congrArg Settings.padding hs
  have e2 : c.connType = ctx.connType := congrArg Settings.transport hs
  refine ⟨e1, hn, ?_, fun h => ?_⟩
  · rw [hmt, capacity_eq (by omega) hm2]; omega
  · have := (effectivePmtu_range hi.pm).1
    have := hd (e2 ▸ h)
    omega

/-- **C108.**  Two runs that connect with a context asking for padding, and whose packets – all handed in after that – differ in
their contents and in their lengths, where the lengths are at most `n` and padded alike (`hideOp`: under full padding any two
lengths from 20 to `n`, under 450-padding two lengths in the same class), have the same results, states, events, callbacks and
datagrams.  `n` is below the largest packet; on datagram connections at most 506, the least path MTU, so that none of them is
ever fragmented; and the configured outside MTU has room for it. -/
theorem C108_padding_hides_lengths (env : Env) (pre later ops' : List Op) (server : Bool) (ctx : SslCtx) (i o : Chain) (n : Nat)
    (hE : Sealed (.traffic ctx.padding n) env)
    (hv : if server = true then isValidServer ctx (run env pre) = .success else isValidClient ctx (run env pre) = .success)
    (hp : ∀ p, .insidePacket p ∉ pre) (hl : ∀ op ∈ later, ¬ResetsMtu op) (hn : n < 1350) (hd : ctx.connType = .datagram → n ≤ 506)
    (hm : n + 114 ≤ (run env (pre ++ [connectOp server ctx i o])).outsideMtu)
    (hc : ∀ op ∈ pre ++ connectOp server ctx i o :: later, CallOf (.traffic ctx.padding n) op)
    (hc' : ∀ op ∈ ops', CallOf (.traffic ctx.padding n) op)
    (same : (pre ++ connectOp server ctx i o :: later).map (hideOp (.traffic ctx.padding n)) = ops'.map (hideOp (.traffic ctx.padding n))) :
    let ops := pre ++ connectOp server ctx i o :: later
    outsideAuth (run env ops).log = outsideAuth (run env ops').log ∧
    datagrams (run env ops).log = datagrams (run env ops').log ∧
    (run env ops).state = (run env ops').state :=
  mask_seen (traffic_hidden hE hc hc' same (fits_later env pre later server ctx i o hv hp hl hn hd hm))

/-! Concrete: a client with full padding is handed a 28-byte or a 500-byte packet; one without padding, two of the same length. -/

namespace Demo

theorem secretEnv_traffic (pad : Padding) (n : Nat) : Sealed (.traffic pad n) yesEnv where
  ssl l call := by
    cases call with
    | write m => simp [yesEnv, secretEnv, ssl3, hideCall, hideOut_len]
    | negotiate => simp [yesEnv, secretEnv, ssl3, hideCall, ssl2, negotiations_hide, ssl]
    | _ => rfl
  sslVersion _ := rfl
  outsideWrite _ := rfl
  netConfig _ := rfl
  serverConfig _ := rfl
  pmtudTime _ := rfl
  rng l := by simp [yesEnv, secretEnv, env, hideLog]
  now _ := rfl
  alloc _ := rfl
  populate _ _ := rfl
  authUserPass _ _ _ _ := rfl
  authToken _ _ _ := rfl
  authBuf _ _ _ _ := rfl

def paddedCtx : SslCtx := { ctx with padding := .full }

def before : List Op := [.setUsername [106, 111, 101], .setPassword [112, 119], .setOutsideMtu 1500]
def after (p : Bytes) : List Op :=
  [.outsideData (dgram [1, 2, 3]) [], .outsideData (dgram [9]) [msg (configIpv4Msg 4242 netCfg)], .insidePacket p, .keepalive]

def tunnel (c : SslCtx) (p : Bytes) : List Op := before ++ connectOp false c [] [] :: after p

theorem tunnel_calls (w : Watch) (c : SslCtx) (p : Bytes) : ∀ op ∈ tunnel c p, CallOf w op := by
  intro op h
  simp only [tunnel, before, after, connectOp, List.mem_append, List.mem_cons, List.not_mem_nil, or_false] at h
  rcases h with (rfl | rfl | rfl) | rfl | rfl | rfl | rfl | rfl <;>
    first | trivial | exact ⟨(by intro p h; cases h), (by intro p h; cases h), fun _ => rfl⟩

def longPkt : Bytes := [69, 0, 1, 244] ++ List.replicate 496 7

theorem tunnel_same {pad : Padding} {n : Nat} (c : SslCtx) {p q : Bytes} (h : hidePkt pad n p = hidePkt pad n q) :
    (tunnel c p).map (hideOp (.traffic pad n)) = (tunnel c q).map (hideOp (.traffic pad n)) := by
  unfold tunnel after
  simp [hideOp, Watch.traffic, Watch.both, h]

/-- Both are sent: ONLINE, return code success, one DATA message. -/
theorem tunnel_sent : (run yesEnv (tunnel paddedCtx ipPkt)).state = .online ∧
    (step yesEnv (run yesEnv (before ++ connectOp false paddedCtx [] [] :: (after ipPkt).take 2)) (.insidePacket ipPkt)).2 = .success ∧
    (step yesEnv (run yesEnv (before ++ connectOp false paddedCtx [] [] :: (after ipPkt).take 2)) (.insidePacket longPkt)).2 = .success := by
  decide +kernel

example : datagrams (run yesEnv (tunnel paddedCtx ipPkt)).log = datagrams (run yesEnv (tunnel paddedCtx longPkt)).log :=
  (C108_padding_hides_lengths yesEnv before (after ipPkt) (tunnel paddedCtx longPkt) false paddedCtx [] [] 506
    (secretEnv_traffic _ _) (by decide +kernel) (by intro p h; simp [before] at h)
    (by intro op h; simp only [after, List.mem_cons, List.not_mem_nil, or_false] at h; rcases h with rfl | rfl | rfl | rfl <;> exact fun h => h)
    (by omega) (fun _ => Nat.le_refl _) (by decide +kernel) (tunnel_calls _ _ _) (tunnel_calls _ _ _) (tunnel_same _ (by decide +kernel))).2.1

/-- Without padding the lengths show … -/
theorem unpadded_shows : datagrams (run yesEnv (tunnel ctx ipPkt)).log ≠ datagrams (run yesEnv (tunnel ctx longPkt)).log := by
  decide +kernel

/-- … but not the contents. -/
example : datagrams (run yesEnv (tunnel ctx longPkt)).log = datagrams (run yesEnv (tunnel ctx (69 :: List.replicate 499 9))).log :=
  (C107_contents_do_not_show (secretEnv_traffic _ _) (tunnel_calls _ _ _) (tunnel_calls _ _ _) (tunnel_same _ (by decide +kernel))).2.1

end Demo

end Lightway
