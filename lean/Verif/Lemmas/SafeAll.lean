import Verif.Lemmas.SafeSwap
import Verif.Lemmas.Live

/-!
# Which errors the other instructions can end in
-/

namespace Dbc
open Spec

theorem Fine.lamports (v a : Nat) : Fine (lamportsOut v a) := Fine.ite (fun _ => Fine.ok _) fun _ => Fine.err rfl
theorem Fine.mulDivU128 (x y d : Nat) (r : Rounding) : Fine (safeMulDivCastU128 x y d r) := by
  unfold safeMulDivCastU128; fine
theorem Fine.role (w : World) (s p : Nat) : Fine (w.checkOperator s p) := Fine.req rfl
theorem Fine.bit (b m : Nat) {e : Err} (h : e.bad = false) : Fine (takeBit b m e) :=
  Fine.bind (Fine.req h) fun _ _ => Fine.ok _
theorem Fine.claimBase (p : Pool) (x : Nat) : Fine (p.claimProtocolBase x) := by
  unfold Pool.claimProtocolBase; fine
theorem Fine.claimQuote (p : Pool) (x t : Nat) : Fine (p.claimProtocolQuoteAndSurplus x t) := by
  have h : Fine (p.claimProtocolQuote x) := by unfold Pool.claimProtocolQuote; fine
  unfold Pool.claimProtocolQuoteAndSurplus
  refine Fine.bind h fun y _ => ?_
  obtain ⟨a, q⟩ := y
  have h2 : Fine (q.protocolSurplusOf t) := by
    unfold Pool.protocolSurplusOf partnerAndCreatorSurplus Pool.totalSurplus
    refine Fine.bind (Fine.sub _ _) fun _ _ => Fine.bind (Fine.mulDivU64 _ _ _ _) fun _ _ => Fine.sub _ _
  dsimp only
  fine
theorem Fine.claimPartner (p : Pool) (b q : Nat) : Fine (p.claimPartner b q) := by unfold Pool.claimPartner; fine
theorem Fine.claimCreator (p : Pool) (b q : Nat) : Fine (p.claimCreator b q) := by unfold Pool.claimCreator; fine
theorem Fine.splitPC (c : PoolConfig) (x : Nat) : Fine (c.splitPartnerCreator x) := by
  have := Fine.mulDivU64 x c.creatorTradingFeePct 100 .down
  unfold PoolConfig.splitPartnerCreator; fine
theorem Fine.partnerSurplus (c : PoolConfig) (x : Nat) : Fine (partnerSurplusOf c x) := by
  unfold partnerSurplusOf partnerAndCreatorSurplus
  exact Fine.bind (Fine.mulDivU64 _ _ _ _) fun _ _ => Fine.bind (Fine.splitPC _ _) fun _ _ => Fine.ok _
theorem Fine.creatorSurplus (c : PoolConfig) (x : Nat) : Fine (creatorSurplusOf c x) := by
  unfold creatorSurplusOf partnerAndCreatorSurplus
  exact Fine.bind (Fine.mulDivU64 _ _ _ _) fun _ _ => Fine.bind (Fine.splitPC _ _) fun _ _ => Fine.ok _
theorem Fine.creation (c : PoolConfig) : Fine c.splitCreationFee := by
  unfold PoolConfig.splitCreationFee
  exact Fine.bind (Fine.mulDivU64 _ _ _ _) fun _ _ => Fine.bind (Fine.sub _ _) fun _ _ => Fine.ok _
theorem Fine.migQuote (t p : Nat) : Fine (migrationQuoteAmount t p) := by
  unfold migrationQuoteAmount
  exact Fine.bind (Fine.sub _ _) fun _ _ => Fine.bind (Fine.mulDivU64 _ _ _ _) fun _ _ => Fine.bind (Fine.sub _ _) fun _ _ =>
    Fine.ok _
theorem Fine.migFee (c : PoolConfig) : Fine c.migrationFeeDistribution := by
  unfold PoolConfig.migrationFeeDistribution
  exact Fine.bind (Fine.migQuote _ _) fun _ _ => Fine.bind (Fine.mulDivU64 _ _ _ _) fun _ _ => Fine.bind (Fine.sub _ _) fun _ _ =>
    Fine.ok _
theorem Fine.baseFees (p : Pool) : Fine p.baseFees := by unfold Pool.baseFees; fine

theorem Fine.simple {w : World} {op : Op} (h1 : ∀ a, op ≠ .swap a) (h2 : ∀ a, op ≠ .migrateV1 a) (h3 : ∀ a, op ≠ .migrateV2 a) :
    Fine (w.step op) := by
  cases op
  case swap a => exact absurd rfl (h1 a)
  case migrateV1 a => exact absurd rfl (h2 a)
  case migrateV2 a => exact absurd rfl (h3 a)
  case claimProtocolFee s b q =>
    have := Fine.role w s 0
    have := Fine.claimBase w.pool b
    have k := fun p => Fine.claimQuote p q w.cfg.migrationQuoteThreshold
    unfold World.step World.claimProtocolFee
    fine
    all_goals exact k _
  case zapProtocolFee s m b x y =>
    have := Fine.role w s 1
    have := Fine.claimBase w.pool m
    have := Fine.claimQuote w.pool m w.cfg.migrationQuoteThreshold
    unfold World.step World.zapProtocolFee
    fine
  case claimPartnerFee s b q =>
    have := Fine.claimPartner w.pool b q
    unfold World.step World.claimPartnerFee
    fine
  case claimCreatorFee s b q =>
    have := Fine.claimCreator w.pool b q
    unfold World.step World.claimCreatorFee
    fine
  case partnerWithdrawSurplus s =>
    have k := Fine.partnerSurplus w.cfg
    unfold World.step World.partnerWithdrawSurplus Pool.totalSurplus
    fine
    all_goals exact k _
  case creatorWithdrawSurplus s =>
    have k := Fine.creatorSurplus w.cfg
    unfold World.step World.creatorWithdrawSurplus Pool.totalSurplus
    fine
    all_goals exact k _
  case withdrawMigrationFee s f =>
    have := Fine.migFee w.cfg
    unfold World.step World.withdrawMigrationFee
    fine
    all_goals exact Fine.bit _ _ rfl
  case claimPartnerCreationFee s =>
    have := Fine.creation w.cfg
    unfold World.step World.claimPartnerCreationFee
    fine
    all_goals first | exact Fine.bit _ _ rfl | exact Fine.lamports _ _
  case claimProtocolCreationFee s =>
    have := Fine.role w s 0
    have := Fine.creation w.cfg
    have k : Fine (w.pool.takeProtocolCreationFee w.cfg) := by
      unfold Pool.takeProtocolCreationFee
      refine Fine.bind ?_ fun x _ => ?_
      · exact Fine.ite (fun _ => Fine.bind this fun _ _ => Fine.ok _) fun _ => Fine.ok _
      · obtain ⟨f, p⟩ := x
        exact Fine.ite (fun _ => Fine.bind (Fine.add _ _ _) fun _ _ => Fine.ok _) fun _ => Fine.ok _
    unfold World.step World.claimProtocolCreationFee
    fine
    all_goals exact Fine.lamports _ _
  case createLocker =>
    unfold World.step World.createLocker
    fine
  case withdrawLeftover r =>
    have := Fine.baseFees w.pool
    unfold World.step World.withdrawLeftover
    fine
  case createMeta =>
    unfold World.step World.createMeta
    fine
  case lockLp o =>
    have k : ∀ (m : DammMeta) a b, Fine (m.lock a b) := by
      intro m a b; cases a <;> cases b <;> unfold DammMeta.lock <;> fine
    unfold World.step World.lockLp
    fine
    all_goals exact k _ _ _
  case claimLp o =>
    have k : ∀ (m : DammMeta) a b, Fine (m.claim a b) := by
      intro m a b; cases a <;> cases b <;> unfold DammMeta.claim <;> fine
    unfold World.step World.claimLp
    fine
    all_goals exact k _ _ _
  case transferCreator s n =>
    have : Fine w.transferAllowed := by
      unfold World.transferAllowed
      fine
    unfold World.step World.transferCreator
    fine
  case createOperator s a p =>
    unfold World.step World.createOperator
    fine
  case closeOperator s a =>
    unfold World.step World.closeOperator
    fine
  case donate b q l =>
    unfold World.step World.donate
    fine
  case mintMore s x =>
    unfold World.step World.mintMore
    fine
  case burnOwn x =>
    unfold World.step World.burnOwn
    fine

/-! ### Migration -/

theorem Fine.burn (c : PoolConfig) (f m v : Nat) : Fine (burnAmount c f m v) := by
  unfold burnAmount PoolConfig.burnable
  fine
theorem Fine.liq (c : PoolConfig) (l : Nat) : Fine (c.liquidityDistribution l) := by
  have k := Fine.mulDivU128
  unfold PoolConfig.liquidityDistribution
  fine
  all_goals exact k _ _ _ _
theorem Fine.toBps (n d : Nat) : Fine (toBps n d) := by unfold Dbc.toBps; fine
theorem Fine.validateBase (o b : Nat) : Fine (validateBaseFee o b) := by unfold validateBaseFee; fine
theorem Fine.setLiquidity (m : DammMeta) (a b : LiqItem) : Fine (m.setLiquidity a b) := by
  unfold DammMeta.setLiquidity; fine

theorem Fine.migrateV1 {w : World} (hr : Reachable w) (a : V1Args) : Fine (w.migrateV1 a) := by
  have hv : Fine (a.config.validate w.cfg.migrationFeeOption) := by
    unfold DammV1Config.validate
    refine Fine.bind (Fine.toBps _ _) fun _ _ => Fine.bind (Fine.validateBase _ _) fun _ _ => ?_
    fine
  unfold World.migrateV1
  refine Fine.bind hv fun _ _ => Fine.bind (Fine.req rfl) fun _ h2 => ?_
  have h2 := req_ok.1 h2
  split
  · exact Fine.err rfl
  refine Fine.bind (Fine.req rfl) fun _ _ => Fine.bind (Fine.req rfl) fun _ ho => ?_
  have ho := req_ok.1 ho
  have hm : Fine (w.migAmounts .compounding) := by
    obtain ⟨m, hma, -, -⟩ := migAmounts_total hr h2 (h := .compounding) (by rw [ho]; rfl)
    exact Fine.of ⟨m, hma⟩
  have := Fine.baseFees w.pool
  have k1 := fun f m v => Fine.burn w.cfg f m v
  have k2 := fun l => Fine.liq w.cfg l
  have k3 := Fine.setLiquidity
  fine
  all_goals first | exact k1 _ _ _ | exact k2 _ | exact k3 _ _ _

theorem Fine.total (i : LiqItem) : Fine i.total := by unfold LiqItem.total; fine
theorem Fine.adjust (i : LiqItem) (x : Nat) : Fine (i.adjust x) := by
  have k := Fine.mulDivU128
  unfold LiqItem.adjust; fine
  all_goals exact k _ _ _ _
theorem Fine.lock (i : LiqItem) (n : Nat) : Fine (lockItem i n) := by
  have k := Fine.mulDivU128
  have : Fine (i.vesting.params i.vested n) := by
    unfold LiqVesting.params
    fine
    all_goals exact k _ _ _ _
  unfold lockItem
  fine

theorem Fine.delta (h : Handler) (p b q x y z : Nat) : Fine (liquidityDelta h p b q x y z) := by
  have k := Fine.mulDivU128
  cases h <;> unfold liquidityDelta
  · fine
    all_goals exact k _ _ _ _
  · unfold concentratedLiquidity
    refine Fine.bind ?_ fun _ _ => Fine.bind ?_ fun _ _ => Fine.ite (fun _ => Fine.ok _) fun _ => Fine.cast _ _
    · unfold liqFromDeltaBase
      exact Fine.bind (Fine.sub _ _) fun _ _ => Fine.bind (Fine.mul _ _ _) fun _ _ => Fine.bind (Fine.mul _ _ _) fun _ _ =>
        Fine.div _ _
    · unfold liqFromDeltaQuote
      exact Fine.bind (Fine.sub _ _) fun _ _ => Fine.bind (Fine.shl _ _) fun _ _ => Fine.bind (Fine.div _ _) fun _ _ =>
        Fine.cast _ _

theorem Fine.migrateV2 {w : World} (hr : Reachable w) (a : V2Args) : Fine (w.migrateV2 a) := by
  have hv : Fine (a.config.validate w.cfg.migrationFeeOption) := by
    unfold DammV2Config.validate
    refine Fine.bind (Fine.req rfl) fun _ _ => Fine.bind (Fine.ite (fun _ => Fine.ok _) fun _ => ?_) fun _ _ => Fine.req rfl
    unfold DammV2Config.validateFixed
    refine Fine.bind (Fine.req rfl) fun _ _ => Fine.bind (Fine.req rfl) fun _ _ => Fine.bind (Fine.toBps _ _) fun _ _ =>
      Fine.bind (Fine.req rfl) fun _ _ => Fine.bind (Fine.validateBase _ _) fun _ _ => Fine.bind (Fine.req rfl) fun _ _ =>
      Fine.bind (Fine.req rfl) fun _ _ => Fine.bind (Fine.req rfl) fun _ _ => Fine.bind (Fine.req rfl) fun _ _ => Fine.req rfl
  unfold World.migrateV2
  refine Fine.bind hv fun _ _ => Fine.bind (Fine.req rfl) fun _ h2 => ?_
  have h2 := req_ok.1 h2
  refine Fine.bind (Fine.req rfl) fun _ _ => Fine.bind (Fine.req rfl) fun _ ho => ?_
  have ho := req_ok.1 ho
  refine Fine.bind (Fine.baseFees _) fun _ _ => Fine.bind (Fine.req rfl) fun _ _ => ?_
  obtain ⟨m, hma, -, hinit⟩ := migAmounts_total hr h2 (h := migrationHandler 1 w.cfg.migratedFee.collectFeeMode) (by rw [ho])
  obtain ⟨r, hi⟩ := hinit ho
  dsimp only
  rw [hma, ok_bind, hi, ok_bind]
  have k1 := fun l => Fine.liq w.cfg l
  have k2 := Fine.total
  have k3 := Fine.lock
  have k4 := Fine.delta
  have k5 := fun f m v => Fine.burn w.cfg f m v
  have k6 : ∀ l s, Fine (createPoolV2 w.cfg.migrationFeeOption w.cfg.migratedFee a.config l s) := fun l s =>
    Fine.of (createPool_total hr ho _ _ _)
  have k7 : ∀ p c x y, Fine (orderPositions p c x y) := by
    intro p c x y
    unfold orderPositions
    exact Fine.bind (k2 _) fun _ _ => Fine.bind (k2 _) fun _ _ => Fine.ok _
  have k8 : ∀ h p s l, Fine (secondPosition h p a s l) := by
    intro h p s l
    have k9 := Fine.adjust
    unfold secondPosition
    fine
    all_goals first | exact k9 _ _ | exact k3 _ _
  obtain ⟨price, liq, dead⟩ := r
  dsimp only
  refine Fine.bind (k1 _) fun x _ => ?_
  obtain ⟨pa, cr⟩ := x
  refine Fine.bind (k7 _ _ _ _) fun x _ => ?_
  obtain ⟨first, second⟩ := x
  exact Fine.bind (k2 _) fun _ _ => Fine.bind (Fine.add _ _ _) fun _ _ => Fine.bind (k6 _ _) fun _ _ =>
    Fine.bind (Fine.vout _ _) fun _ _ => Fine.bind (Fine.vout _ _) fun _ _ => Fine.bind (k3 _ _) fun _ _ =>
    Fine.bind (Fine.sub _ _) fun _ _ => Fine.bind (Fine.sub _ _) fun _ _ => Fine.bind (k4 _ _ _ _ _ _ _) fun _ _ =>
    Fine.bind (k8 _ _ _ _) fun _ _ => Fine.bind (Fine.vout _ _) fun _ _ => Fine.bind (Fine.vout _ _) fun _ _ =>
    Fine.bind (k5 _ _ _) fun _ _ => Fine.bind (Fine.vout _ _) fun _ _ => Fine.ok _

theorem Fine.step {w : World} (hr : Reachable w) (op : Op) (h : ∀ a, op = .swap a → a.amount0 ≤ u64Max ∧ Executed a.tx) :
    Fine (w.step op) := by
  by_cases h1 : ∃ a, op = .swap a
  · obtain ⟨a, rfl⟩ := h1
    exact Fine.swap hr (h a rfl).1 (h a rfl).2
  by_cases h2 : ∃ a, op = .migrateV1 a
  · obtain ⟨a, rfl⟩ := h2
    exact Fine.migrateV1 hr a
  by_cases h3 : ∃ a, op = .migrateV2 a
  · obtain ⟨a, rfl⟩ := h3
    exact Fine.migrateV2 hr a
  exact Fine.simple (fun a e => h1 ⟨a, e⟩) (fun a e => h2 ⟨a, e⟩) fun a e => h3 ⟨a, e⟩

end Dbc
