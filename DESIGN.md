# Formal model of rally-dfs/token-bonding-curve

All paths in this file are relative to `/repo/programs/token-bonding-curve/src` unless they start with `lean/`.

## 1. What is modelled

| Lean module (`lean/Verif/…`) | Rust source | Notes |
|---|---|---|
| `Model/Res.lean` | – | three-valued result `ok / none / panic`: `Option::None` and a Rust panic are different data; checked integer operations with an explicit bound |
| `Model/Types.lean` | `curve/calculator.rs` l.12-75 | directions, result records, `map_zero_to_none` |
| `Model/Dfs.lean` | `dfs_precise_number.rs` l.18-178, l.193-321 | 18-decimal fixed point on the raw 256-bit value |
| `Model/Compare.lean` | `dfs_precise_number.rs` l.71-95 | comparisons (`almost_eq`, `less_than`, …) |
| `Model/SwapCurve.lean` | `curve/base.rs` l.25-41, l.61-70, l.169-268 | the curve as a tag beside a calculator: packing, `==`, `clone`, `Default` |
| `Model/DfsSpl.lean` | `dfs_precise_number.rs` l.179-191 | conversion to spl-math's 12-decimal number |
| `Model/SplMath.lean` | crate `spl-math` 0.1.0 (not in `/repo`) | `checked_ceil_div`, 12-decimal `PreciseNumber`; square root is a parameter |
| `Model/SplRoot.lean` | the same, `PreciseNumber::sqrt` | the published routine, as one value of that parameter (C105) |
| `Model/Fees.lean` | `curve/fees.rs` | |
| `Model/Linear.lean` | `curve/linear_price.rs` l.20-486 | |
| `Model/ConstantPrice.lean` | `curve/constant_price.rs` | |
| `Model/ConstantProduct.lean` | `curve/constant_product.rs`, `curve/offset.rs` | |
| `Model/Stable.lean` | `curve/stable.rs` | |
| `Model/Curve.lean` | `curve/base.rs`, `curve/calculator.rs` | |
| `Model/State.lean` | `state.rs`, packing in `curve/*.rs` | byte lists |
| `Model/Ledger.lean` | crate `spl-token` 3.3.0 (transfer, mint_to, burn), account model | |
| `Model/Processor.lean` | `processor.rs` l.29-977, l.1052-1054, `constraints.rs` | |
| `Model/Exec.lean` | `lib.rs`, `instructions/*.rs` | the seven instructions with their signer checks |
| `Model/Wire.lean` | `lib.rs` l.31-166, `instructions/*.rs` as compiled by anchor-lang 0.20.1 | entrypoint: tags, argument decoding, account order, `mut` and `signer` |
| `Model/Value.lean` | `curve/*.rs` (`normalized_value`) | the curves' measure of value (constant price: in `Model/ConstantPrice.lean`) |
| `Model/TokenProgram.lean` | – (spl-token 3.3.0, system program, runtime ownership rules, Anchor IDL instructions) | what third parties can do, step by step |
| `Model/Error.lean` | `error.rs` | the numbers under which errors are reported (those of spl-token and Anchor recalled) |
| `Model/Client.lean` | `app/src/index.ts`, `app/src/layout.ts`, `app/src/util/account.ts` | the TypeScript client: conversions, `loadTokenSwap`, instruction builders (not the transaction sending around them) |
| `Model/Header.lean` | `inc/token-swap.h` | the C bindings as a C compiler lays them out (little-endian, 64 bits) |
| `Model/Chain.lean` | – | contract of the runtime and of third parties (`EnvStep`), executions (`Steps`) |

The specification the theorems are stated in is kept apart from the model: `Spec/Fixed` (rational
values of fixed-point numbers), `Spec/Linear` (exact cost as a rational function, trading histories),
`Spec/Position` (the exact curve over the reals: position, marginal price, blur),
`Spec/Exchange` (fees, constant-product and constant-price trades), `Spec/Stable` (the stable curve over the reals),
`Spec/Pools` (pools as triples, worth, histories of value pools), `Spec/Ledger` (balances, supplies,
frames, totals, spenders), `Spec/Exec` (what an instruction names), `Spec/Chain` (reachability,
custody), `Spec/Live` (who can pay and receive, sound parameters), `Spec/Admission` (what a new pool
needs), `Spec/Shares` (division with explicit rounding, what counts of a single-sided amount), `Spec/Guard`
(frozen accounts, allowances), `Spec/Wire` (instruction encoding, roles of accounts), `Spec/Sha` (SHA-256, to check
the tags), `Spec/Client` (what the client should show, what it builds), `Spec/Outside` (what does not involve a pool),
`Spec/Local` (what an instruction uses and writes), `Spec/Limit` (thresholds), `Spec/Claim` (what belongs to a
holder of pool tokens), `Spec/Spot` (mean of spot prices, curves that continue another), `Spec/Supply` (tokens held
anywhere against the supply), `Spec/Path` (sequences of trades on one pool), `Spec/Abort` (where the
program aborts), `Spec/Consent` (who approved a step), `Spec/Report` (the meaning of error numbers), `Spec/Detour` (deposits and withdrawals by way of a trade), `Spec/Serve` (exact conditions for an instruction to go through), `Spec/Amount` (right accounts, and failures that concern amounts), `Spec/Plain` (prices of linear pools in plain arithmetic), `Spec/Setup` (what given signers can do, unused addresses), `Spec/Freeze` (frozen accounts, freeze authorities), `Spec/Room` (balances that fit, trades and withdrawals that are due), `Spec/Idle` (executions without somebody), `Spec/Basket` and `Spec/Cut` (histories of constant-product and offset pools), `Spec/Steady` (constant-price trades in plain numbers), `Spec/Block` (a user who has what a trade or withdrawal takes), `Spec/Reference` (one round of the reference model's iterations), `Spec/Issue` (who can issue tokens of a mint), `Spec/Steep` (curves on which rounding is harmless), `Spec/Grain` (allowances for rounded parameters), `Spec/Dear` (steeper curves, price of the last token), `Spec/Parts` (rows of purchases and of sales), `Spec/Calm` (executions that leave token B in a vault). `Props/*` hold only the property theorems with their examples (`Props/Sample` is a concrete
ledger with two pools); `Lemmas/*` hold everything else. `Audit.lean` prints the axioms of every
theorem in `MANIFEST.json`.

Every definition carries a comment with the file and lines it models.

### Representation choices
* Rust `u64` parameters and token balances are Lean `UInt64`, so theorems need no range hypotheses about them. Intermediate `u128`/`U256` values are `Nat` with every checked operation testing the Rust bound explicitly.
* `Option`-returning Rust code returns `Res`: `none` models `Option::None`, `panic` models an abort (`U256::as_u64`, `U256::as_u128` overflow).
* The `while` loop of the integer square root is a fuel recursion whose fuel is proved sufficient; the `for` loops of the stable curve are recursion on the iteration count.
* `SwapCurve { curve_type, calculator }` is one inductive type; the two Rust fields are always created consistently (`lib.rs` l.63-66, l.94-102, `curve/base.rs` unpack; `C94_matched`).
* A ledger is a function from 32-byte addresses to accounts; token accounts and mints are records (their 165/82-byte encodings are spl-token's and are not modelled), pool accounts are byte lists.
* An instruction is a function `World → Except Err World`; Solana's atomicity (failure leaves the ledger unchanged) is built into that type.

### Not modelled
Compute budget, lamports/rent (wrapped SOL is modelled: `SyncNative` sets an account's amount to a parameter, and such accounts can be closed with tokens in them), spl-token multisig owners as users of this program (they are modelled as third parties in C66), program upgrades, log messages, the bodies of Anchor's built-in IDL instructions (their effect is part of `EnvStep`), sending of transactions by the TypeScript client and its test scripts, the fuzz crate.

## 2. Trusted base
* The Lean 4.33.0 kernel and the axioms in the table. No own axioms, no `sorry`, no `native_decide`.

<!-- axioms -->
| Axioms | Theorems |
|---|---|
| none | `C44_stuck`, `C17_empty_source`, `C18_false`, `C22_false`, `C24_wrong_size`, `C49_stable_pays_nothing`, `C51_round_trip_profit`, `C79_withdraw_false`, `C79_helper_false`, `C83_dust`, `C94_types` |
| `propext` | `C03_false`, `C04_false`, `C11_supply`, `C25_no_panic`, `C61_not_idl`, `C66_close_removes`, `C66_freezer_freezes`, `C66_handover`, `C67_same_pool`, `C69_round_trip_gains`, `C70_false`, `C75_deposit_aborts`, `C75_withdrawal_aborts`, `C75_swap_aborts`, `C78_false`, `C78_abort`, `C79_false`, `C80_left_behind`, `C82_untolerated`, `C94_matched`, `C94_mismatch`, `C102_sharp`, `C104_false_free`, `C105_sharp`, `C105_false`, `C107_gain`, `C107_false` |
| `propext, Quot.sound` | `C12_whole_fixed`, `C13_mul_comm`, `C14_to_spl_partial`, `C14_half_and_above`, `C15_validate`, `C16_curve`, `C16_swap`, `C16_history`, `C21_deposit_single`, `C43_swap`, `C24_round_trip`, `C24_advertised_size`, `C25_accepts`, `C25_faithful`, `C55_burn`, `C55_price_burn`, `C62_description`, `C65_price`, `C66_minter_inflates`, `C67_local`, `C87_room`, `C94_round_trip`, `C94_in_place`, `C94_clone`, `C94_eq`, `C95_invariant_partial`, `C100_refused_partial` |
| `propext, Classical.choice, Quot.sound` | `C08_sqrt_down`, `C08_sqrt_up`, `C08_two`, `C08_powers_of_four`, `C09_down_total`, `C09_up_iff`, `C10_isqrt_down`, `C10_isqrt_up`, `C12_round_trip`, `C12_to_imprecise`, `C12_to_imprecise_total`, `C12_floor`, `C12_ceiling`, `C13_mul_whole`, `C13_div_whole`, `C13_mul_nearest`, `C13_mul_fallback`, `C14_false`, `C01_solvency`, `C02_exact`, `C03_sell_buy_partial`, `C03_steep_partial`, `C04_buy_sell_partial`, `C04_slack`, `C04_any_partial`, `C04_any_slack`, `C05_split`, `C05_combined_succeeds`, `C05_many`, `C06_position_mono`, `C06_buy_mono`, `C06_buy_succeeds`, `C06_sell_mono`, `C11_params`, `C44_down_total`, `C44_up_iff`, `C07_swap_bounds`, `C15_fee`, `C17_product`, `C17_offset`, `C17_no_profit`, `C17_history`, `C17_offset_history`, `C18_deposit_partial`, `C18_deposit_even_partial`, `C19_constant_price`, `C19_product`, `C20_deposit`, `C20_withdraw`, `C22_withdraw_partial`, `C22_withdraw_no_fee_partial`, `C23_owner_fee`, `C42_history`, `C43_conversion`, `C27_initialize`, `C29_swap`, `C30_deposit_all`, `C30_deposit_single`, `C31_withdraw_all`, `C31_withdraw_single`, `C32_conservation`, `C32_pool_mint`, `C33_no_theft`, `C36_no_withdrawals`, `C37_no_deposits_partial`, `C37_false`, `C39_minted_to_fee_account`, `C39_no_host_fee`, `C40_constraints`, `C40_production`, `C40_no_linear`, `C26_pool_forever`, `C26_init_once`, `C28_pool_kinds`, `C34_isolated`, `C35_custody`, `C38_no_charges`, `C41_solvency`, `C41_exact`, `C45_position`, `C45_position_unique`, `C46_buy`, `C47_sell`, `C48_sell_partial`, `C48_buy_partial`, `C48_false`, `C48_small_sales_fail`, `C48_small_purchases_fail`, `C49_pays`, `C49_takes`, `C50_product`, `C50_constant_price`, `C50_offset`, `C51_stable_partial`, `C51_false`, `C52_swap`, `C52_linear`, `C52_fee_account`, `C53_deposit_all`, `C53_withdraw_all`, `C53_deposit_single`, `C53_withdraw_single`, `C54_initialize`, `C55_mint`, `C55_price_mint`, `C55_price_mint_succeeds`, `C55_deposit_single`, `C55_withdraw_single`, `C55_withdraw_single_succeeds`, `C56_initialize`, `C57_host`, `C58_frozen`, `C58_swap_thawed`, `C58_allowance`, `C59_root_deposit`, `C59_root_withdraw`, `C59_root_deposit_fair`, `C59_root_withdraw_fair`, `C59_stable_deposit`, `C59_stable_withdraw`, `C59_stable_withdraw_charge`, `C60_false`, `C60_drain`, `C60_purchases_partial`, `C60_steep_partial`, `C60_chain_partial`, `C60_dear_partial`, `C60_cheap_partial`, `C60_executions_partial`, `C61_tags`, `C61_data`, `C61_unambiguous`, `C61_entry`, `C61_writes`, `C61_no_theft`, `C62_numbers`, `C62_faithful`, `C62_authority`, `C62_origin`, `C63_false`, `C63_rejected`, `C63_tag_partial`, `C64_sale`, `C64_everything`, `C64_purchase`, `C65_product`, `C65_offset`, `C65_stable_false`, `C65_linear_false`, `C65_false`, `C65_linear_buy_partial`, `C65_linear_sell_partial`, `C65_blind`, `C66_contract`, `C66_executions`, `C66_vaults`, `C66_delegate_drains`, `C67_unaffected`, `C67_unaffected_all`, `C67_commute`, `C68_swap`, `C68_deposit_single`, `C68_withdraw_single`, `C68_deposit_all`, `C68_withdraw_all`, `C69_step_partial`, `C69_withdraw_single_partial`, `C69_history_partial`, `C69_false`, `C70_split_sale_partial`, `C70_steep_partial`, `C70_many_partial`, `C71_buy_price`, `C71_buy_spot`, `C71_later_buyer`, `C71_sell_price`, `C71_sell_spot`, `C72_handover`, `C72_purchase`, `C72_every`, `C73_accounted`, `C73_fresh`, `C73_covered`, `C73_burnable`, `C73_zero`, `C73_solvent`, `C74_potential`, `C74_net_cost`, `C74_cycle`, `C74_exits`, `C74_chain`, `C75_abort`, `C75_never`, `C75_stuck`, `C76_false`, `C76_locked`, `C76_dead`, `C76_release_partial`, `C76_tokens_partial`, `C76_zero_partial`, `C77_allowance`, `C77_untouched`, `C77_all_steps`, `C77_only_steps`, `C77_multisig`, `C77_spends`, `C78_sole_partial`, `C78_limit`, `C78_existing_partial`, `C78_swap_partial`, `C79_deposit_partial`, `C79_deposit_close_partial`, `C79_withdraw_partial`, `C79_withdraw_close_partial`, `C80_false`, `C80_share_partial`, `C80_single`, `C80_refused`, `C80_last`, `C80_everything`, `C81_swap`, `C81_deposit_all`, `C81_deposit_single`, `C81_withdraw_all`, `C81_withdraw_single`, `C82_amounts`, `C82_linear`, `C82_tolerated`, `C83_sale`, `C83_refused`, `C83_purchase`, `C83_buyout`, `C83_purchase_other`, `C84_trade`, `C84_abort`, `C84_fees`, `C84_ledger`, `C85_setup`, `C85_execution`, `C86_consent`, `C86_pool_tokens`, `C86_spendable`, `C87_scarce`, `C87_trade`, `C87_withdraw_all`, `C87_withdraw_single`, `C88_share`, `C88_collect`, `C89_purchase`, `C89_quoted_purchase`, `C89_sale`, `C89_quoted_sale`, `C89_purchase_many`, `C89_sale_many`, `C89_quoted_purchase_many`, `C89_quoted_sale_many`, `C90_quote`, `C90_ledger`, `C90_stays`, `C90_trade`, `C91_order`, `C91_almost`, `C91_monotone`, `C91_squares`, `C91_whole`, `C91_limit`, `C92_rounds`, `C93_ready`, `C93_linear_partial`, `C93_fixed_partial`, `C93_withdraw_partial`, `C93_single_partial`, `C93_trade_owner_partial`, `C93_withdraw_owner_partial`, `C93_single_owner_partial`, `C93_closed`, `C93_false`, `C95_destination_partial`, `C95_swap_partial`, `C95_accuracy_partial`, `C95_close_partial`, `C95_settled_partial`, `C95_settled_destination_partial`, `C95_settled_swap_partial`, `C95_false`, `C96_consent`, `C96_fixed`, `C96_not_pool`, `C96_pool_tokens`, `C97_position`, `C97_ordinary`, `C97_buy`, `C97_sell`, `C97_buy_price`, `C97_buy_spot`, `C97_sell_spot`, `C97_later_buyer`, `C98_curve_sell`, `C98_curve_buy`, `C98_sale`, `C98_everything`, `C98_purchase`, `C99_level`, `C99_emptied`, `C99_cycle`, `C99_chain`, `C99_chain_emptied`, `C100_false`, `C100_unreadable_partial`, `C101_creation_partial`, `C101_side_partial`, `C101_false`, `C101_false_linear`, `C102_single`, `C102_first`, `C102_both`, `C103_safe`, `C103_exact_partial`, `C103_fixed_partial`, `C103_stuck`, `C103_false`, `C104_history_partial`, `C104_share_partial`, `C104_draw_partial`, `C104_draw_share_partial`, `C104_false`, `C105_root`, `C105_close_partial`, `C105_squares`, `C105_near`, `C105_monotone`, `C105_deposit`, `C105_value`, `C106_swap`, `C106_root`, `C106_history_partial`, `C106_share_partial`, `C106_false`, `C107_twice_partial`, `C107_curve` |
<!-- /axioms -->

* The model is a faithful transcription of the Rust code (by reading; nothing was executed). To guard against slips of transcription, the model is evaluated on the values the repository's own tests use, and every one agrees: the unit tests of the numbers, curves, fees, state and constraints (`Verif/Vectors.lean`, 152 cases), the integration tests of `tests/token-bonding-curve.ts` as whole instructions (`Verif/VectorsRun.lean`, 29 cases), and the scenarios of the commented-out tests of `processor.rs` with the error each wrong account or amount is to give (`Verif/VectorsProc.lean`, 131 cases). These are tests of the model, not proofs, and no claim rests on them.
* External code, recalled from the published crates because no source is available offline:
  * `uint` crate: `checked_*`, `bits`, shifts, `as_u64`/`as_u128` panic on overflow.
  * `spl-math` 0.1.0 `checked_ceil_div`; for a zero quotient two published behaviours exist (fail, or round half up); the model carries a switch and the theorems hold for both. `PreciseNumber::sqrt` is an arbitrary function; what C59, C65, C104 and C106 assume of it is shown of the published routine, as recalled in `Model/SplRoot.lean`, in C105 and `C106_root`.
  * `spl-token` 3.3.0 transfer/mint/burn semantics and its program-id check in instruction builders.
  * Program-derived addresses: `create_program_address` is an arbitrary function. Where needed, these are explicit hypotheses about the set `K` of addresses used as pool accounts in the execution (`EnvOk`): injectivity in the pool address (collision resistance; it cannot hold on all addresses, hence `K`), consistency of `find_program_address` with it, and "derived addresses never sign a transaction" (`Step.instr`). `Props/Chain.lean` shows them satisfied by a concrete environment.
  * Third-party activity is any ledger change satisfying the `EnvStep` contract (`Model/Chain.lean`): it cannot touch program-owned data, except that Anchor's built-in IDL instructions (compiled in, since `Cargo.toml` declares no `no-idl` feature) turn accounts whose first eight bytes are zero into IDL accounts and rewrite those; an account newly assigned to the program is zeroed or an IDL account; it cannot take from or re-assign token accounts owned by a derived address without delegate and close authority; it cannot mint on a derived authority's mint or add a freeze authority. `C66_contract` proves that every spl-token instruction signed by others, account creation, other programs within the runtime's ownership rules and the IDL instructions meet the contract (as modelled in `Model/TokenProgram.lean`), so for executions made of such steps the contract is derived, not assumed (`C66_executions`). Upgrading the program itself is outside. Rent collection of a pool account that is not rent exempt is outside it.
  * anchor-lang 0.20.1: `global:<name>` tags (checked against SHA-256 in `C61_tags`), `deserialize` ignoring trailing bytes, accounts taken in field order with extra ones ignored, the `mut` and `signer` constraints. `bn.js`, `buffer-layout` and `@solana/web3.js` as described in `Model/Client.lean`.

## 3. Properties and plan

"Representable" linear curve: `2*slope_den | slope_num*10^18`, `price_den | price_num*10^18`, `price_den^2 | price_num^2*10^18` (all decimal denominators up to 10^9 for the price and 5*10^17 for the slope qualify).

| Id | Model | Proof plan |
|---|---|---|
| C01 | Linear | invariant by induction over histories; the specification is the rational function `slope/2*b^2+price*b` |
| C02 | Linear | same induction without exhausting buys |
| C03 | Linear | false in general: concrete free-token cycle by evaluation; `_partial` for representable curves; `_steep_partial` for curves with `slope·√(price² + 2·slope) ≥ 10^-17`, where a real estimate keeps the rounded-up position within half a token of every whole position paid for |
| C04 | Linear | from directed rounding of the curve position; false for marginal prices above 10^18: witness + `_partial` below, slack bound of 32 units for all |
| C05, C06 | Linear, Dfs | monotonicity of the square root across precision changes; any number of parts by induction over the computed positions (`C05_many`) |
| C07 | Curve | case analysis per curve |
| C08-C10 | Dfs | Newton iteration invariant, bit-length case split |
| C11 | Linear | direct |
| C12-C14 | Dfs | arithmetic; C14 false for fractions >= 1/2: witness + `_partial` |
| C15 | Fees | arithmetic |
| C16 | ConstantPrice, Curve | exact arithmetic |
| C17 | ConstantProduct | ceiling-division bound |
| C18 | ConstantPrice | false by parity: witness + bounded `_partial` |
| C19-C21 | ConstantPrice, ConstantProduct | arithmetic |
| C22 | Curve, ConstantPrice | false with a trade fee: witness + `_partial` for zero trade fee |
| C23 | Curve, ConstantPrice | arithmetic |
| C24, C25 | State | byte-level round trip |
| C27, C29-C33, C39, C40 | Processor, Exec | inversion of each `process_*` function, frame and effect lemmas |
| C26, C28, C34, C35, C38 | Chain | invariant (configuration bytes, custody, pool kind) over executions |
| C36 | Processor | direct |
| C37 | Processor, Chain | false when the pool-token supply was burnt to zero: reachable witness + `_partial` |
| C41 | all | C01 invariant lifted through the processor |
| C42 | ConstantPrice | induction |
| C43 | Stable | direct |
| C44 | Linear | bound tracking |
| C45 | Linear, Dfs | error of the root (C08) carried through the quadratic formula, over the reals |
| C46, C47 | Linear | two-sided bounds from C45 and from the closed form of the locked amount |
| C48 | Linear | false: concrete sale on a flat curve; `_partial` up to the blur of the position |
| C49 | Curve | inversion of each curve; stable curve and empty source side shown as concrete cases |
| C50 | Curve, Fees | iff against `Spec/Exchange` (floor, least charge), overflow and refusal included |
| C52-C54 | Processor, Chain | converse of the inversion lemmas: every check and token call of a `process_*` function succeeds under user-level conditions (`Spec/Live`) plus custody (C35) |
| C55 | Curve | exact outcome of each conversion as an equivalence (or soundness plus success condition where a zero quotient makes the crate's behaviour open) |
| C56 | Processor | both directions: inversion lemma (C27) and forward run (C54) |
| C57 | Processor | inversion of the host branch; the amount fits 64 bits because the minted supply does |
| C58 | Ledger, Processor | relation preserved by each token call, composed over each instruction |
| C59 | ConstantProduct, Offset, Stable, Curve, SplMath | equivalence; 12-decimal arithmetic on whole numbers shown exact, computed invariant bounded by twice the balances so no overflow branch is reached |
| C60 | Linear | negation by induction on the number of rounds; `_partial` by an invariant over rising histories and a real bound on the rounded-down position; `_steep_partial` by an invariant over all histories that do not empty the B vault (the half token of C03 does not add up, because positions are whole); `_dear_partial`, `_cheap_partial` and `_executions_partial` by an invariant with a reference level that buying out comes back to |
| C61 | Wire, Exec | decoding as an equivalence with the encoding; account lists as an equivalence with the documented roles; tags computed by SHA-256 in the kernel; effects of each instruction compared with the writable roles |
| C62 | Client, State, Chain | layouts compared field by field; induction over executions for what the program's accounts hold |
| C63 | Client, Wire | negation for every instruction the client builds; `_partial`: equality of the rest |
| C64 | Exit | C48 (what the curve quotes) composed with C52 (what is quoted is served) on reachable ledgers; quote bounded by the vault |
| C65 | Value | from C16, C17 for the three curves where it holds; negations by witness; `_partial`: untruncated total on linear pools |
| C66 | TokenProgram, Chain | every third-party step is shown to meet `EnvStep` (case analysis over instructions), with the invariant that derived addresses stay with the system program; induction over executions |
| C67 | Exec, Processor, Ledger | a ledger patched outside the instruction's accounts gives the patched result, by going through every handler's monadic steps; commutation follows with the frame property of C61 |
| C68 | Exec, Processor | each handler, as a function of its limit alone, is a cut: compositional lemmas (bind, if, require) carry the threshold through the monadic steps; the run structures identify it with the amount moved |
| C69 | Chain, Exec, Processor, ConstantPrice | every instruction changes (worth of vaults, pool tokens) in one of five ways bounded by C18, C19, C21-C23, others only in the holders' favour; induction over the execution with rational claims; false for single-sided withdrawals (witness) |
| C70 | Linear | false (witness with slope 12/10^19); `_partial`: on representable curves amounts are integer points of one exact parabola; the second sale starts on the position the first left; `_steep_partial` the same up to half a token, which whole positions absorb; `_many_partial`: any number of parts |
| C71 | Linear | position differences (C46, C47) rewritten as amount over mean of marginal prices, by the difference of squares |
| C72 | Linear | completing the square: the continued curve has the same marginal price after shifting by the exact cost; `C72_every` by C97 |
| C73 | Exec, Processor, TokenProgram, Chain | every step keeps "sum over accounts = supply": transfers, mints and burns via C32's conservation, everything else account by account; induction over the execution; solvency by summing C19's quotes |
| C74 | Linear, Exec, Chain | position + token B as a potential: one trade lowers it by at most `10^-18` (C47); induction over trades and gifts, costs by monotonicity of the exact cost; emptying sales land on whole numbers, which is used to pay the rounding only once; on chain via `linear_step` and C38's vault lemmas |
| C75 | all | each processor function followed to the first computation that can panic; constant-price conversions: quotient of `2^128` needs `2^64` times the pool; linear: only the rounded-up position at the start (C44); other curves are not on chain (C28) |
| C76 | Linear, Chain | false (curve whose band covers every balance); `_partial`: monotone radicand that at most doubles per token leaves a band before the next begins; locked pools by induction over steps |
| C77 | Processor, TokenProgram | every step of `Move` changes a token account only by `authorize`, which takes the amount off the allowance; induction over executions; consent specified by a set of key positions |
| C78 | Error, Processor, Wire | false: concrete reachable ledger; `_partial`: the set of errors of every step, combined along the handlers; for existing pools custody (C35) excludes the ambiguous ones |
| C79 | ConstantPrice, Curve | false: concrete pools; `_partial`: exact conversions (C55) and exact value of a trade (C16), compared by cross-multiplication |
| C80 | Processor, Chain, ConstantPrice | false: concrete reachable run; `_partial` and the rest: exact effect of a withdrawal on the vaults (C31) with exact conversions (C55); `C80_everything` runs two instructions by C53 |
| C81 | Processor, Chain, Ledger | exact success conditions of the three token calls, moved to the first ledger because the accounts of an operation differ (by mint or owner); inversion lemmas for necessity, run lemmas for sufficiency |
| C82 | Processor, Chain, Ledger | every failure of each step is traced (`Fails`); the steps that concern accounts cannot fail because the pool is in custody and configured |
| C83 | Linear | inversion of both swaps; the computed position and the locked amount are monotone |
| C84 | Linear, Dfs, Curve, Exec | refinement: closed forms of root, position and locked amount; where a step of the code could fail the formula exceeds the offer or the vault |
| C85 | TokenProgram, Processor, Exec | construction of the steps; each account's contents followed through them, the last step by C54 and C27 |
| C86 | Processor, TokenProgram | invariant by induction over executions: a mint keeps its freeze authority and nothing in it is frozen without it; with C35 (no authority) and C77 |
| C87 | Processor, Linear, TokenProgram | C73 bounds any two balances by the supply; with C81 (exact conditions) and C84 (plain formula) |
| C88 | Processor, ConstantPrice, TokenProgram | induction over executions without the holder: C69 for each step, C77 and C73 for the pool tokens being there, C86 for being able to spend them, then the withdrawal of C80 |
| C89 | Processor, Linear | C74 for all the trades together, C84 for the one in the middle, the exact cost between two positions; with the quote as limit, C46 and C47; `_many`: C99 in place of C74 |
| C90 | Processor, ConstantPrice, Fees | the pricing of C50 as a function, C29 on the ledger, C81 for what goes through |
| C91 | Compare, Dfs | comparisons as stated on rationals; closed form of sqrt_u64 (C08) on squares |
| C92 | Dfs | the distance to the root more than halves each round; 40 rounds suffice from (x+1)/2 |
| C93 | TokenProgram, Processor, all curves | false of pools with owner fees: whoever owns the fee account can close it and thereby stop all withdrawals (C93_closed, witness C93_false); proved for the others from C77, C86, C87 and C90, and for pools with owner fees (all curves, C81) if the owner of the fee account is one of those who take no part |
| C94 | SwapCurve, State | packing is injective on curves whose tag and calculator match; all curves the program makes do |
| C95 | Stable | false: 32 rounds do not always come to rest (C95_false); proved that the results are exactly round 32 of the reference's iteration (`Spec/Reference`, after sim/simulation.py), and how accurate they are when the last rounds differ by no more than one unit (real algebra); `Props/Settle`: for balances of at least 100 units within a factor of 10^8 of each other 32 rounds are enough (contraction by a third or a half per round, then quadratic convergence, `Lemmas/Settle`) |
| C96 | Processor, TokenProgram | invariant by induction over executions: a mint keeps its mint authority and its supply does not grow without it; with C35 a mint without authority is not that of a pool |
| C97 | Linear, Dfs | real estimates of every rounding step (price, radicand, root, quotient), for all valid parameters; a radicand too small for the root's error bound is covered by the allowance |
| C98 | Linear, Processor | the bounds of C97 give success and the amount on the curve; C52 carries it to the ledger |
| C99 | Linear, Chain | the invariants of C60 started at the level of token B in the vault plus the whole part of the position; on chain via `linear_step` |
| C100 | Header, Wire, State | false: a purchase and a pool record; `_partial`: first four bytes against the tags, second byte of a record against the states |
| C101 | Chain, Processor | false (`C101_false`, `C101_false_linear`); for the side that must be funded at creation by induction over executions with the accounting of C73: the pool mint has no supply yet, so nobody holds any of it |
| C102 | ConstantPrice, Processor, Chain | the rounding of the conversions (`depositSingle_inv`, `toTrading_up`) with the effect of the deposit on the vaults and C21; the limit turns one pool token into one part in y + 1 |
| C103 | Processor, Chain, TokenProgram | false of linear pools; C56 says what creation needs, and each item survives every step its owners do not approve of (`kept_instr`, `kept_other`, `respects_all`, C73, C86), the empty vault for token A excepted |
| C104 | ConstantProduct, Offset, Curve | false of exact one-sided withdrawals; without them by induction over the history, each step by C17, the two-sided rounding lemmas or C59 |
| C105 | SplRoot, ConstantProduct, Curve | Newton's iteration on integers: distances halve, then are squared, so 100 rounds are enough; the last two guesses bound the square of the result; then C59 and C65 |
| C106 | ConstantProduct, Offset, Curve | false; each trade by C17 without the fee, C59's formula for the minted fee and `u(2-u) ≤ 1`; histories by induction with C104's other steps |
| C107 | Processor, Exec, ConstantPrice | false: witness execution; the factor of two from the rounding of `checked_ceil_div` (up, or to the nearest below one), through the inversion of `process_swap` |
| C51 | Stable | false: concrete trade; `_partial`: Newton steps never end below the exact root (real algebra) |

## 4. Findings

Each item names the theorem that states it; the theorem is the authority.

* **C03** (`C03_false`) – slope `19/10^19`, price 0 (accepted by validation; half the slope is not a multiple of `10^-18`): with 2 A and 2^63 B in the pool, selling 366522339 B returns 1 A, which buys 480895001 B. Excluded for representable curves (`C03_sell_buy_partial`) and for all curves with `slope·√(price² + 2·slope) ≥ 10^-17` (`C03_steep_partial`); that covers every slope from `4·10^-12` on and, at a price of 10 or more, every slope that validation admits.
* **C04** (`C04_false`) – slope `4.07*10^17`, price `9.0*10^18`: one B bought for 9204341626269359039 A is taken back for one A more. For representable curves: excluded while the marginal price is at most `10^18` (`C04_buy_sell_partial`), and the gain is at most 32 A at any price (`C04_slack`). For every valid curve: excluded while `5/slope` plus the marginal price is below `10^18`, and the gain is at most 36 A in any case (`C04_any_partial`, `C04_any_slack`).
* **C08** (`C08_two`) – the rounded-down fixed-point root misses the `2^-30` relative error at raw value 2, and only there (`C08_sqrt_down`).
* **C14** (`C14_false`, `C14_half_and_above`) – conversion to the 12-decimal number is one whole unit too large for every fraction of 1/2 and more.
* **C17** (`C17_empty_source`) – a constant-product pool with an empty source side pays out its whole destination balance and charges nothing, so C17 assumes a positive source balance.
* **C18** (`C18_false`) – a two-sided deposit into a constant-price pool of odd total value can dilute holders; `C18_deposit_partial` bounds the loss by that odd unit.
* **C22** (`C22_false`) – with a positive trade fee a single-sided withdrawal can burn too few pool tokens: fee 1/2, pool 50/50 with supply 100, withdrawing 10 burns 8.
* **C37** (`C37_false`) – after the holder of all pool tokens of a linear pool burns them, `deposit_single` succeeds and mints a fresh supply; the state is reachable from a ledger without pools.
* **C44** (`C44_stuck`) – on a validated curve (slope about 4.1, price 0) a pool holding exactly 9 A aborts on every purchase and every sale.
* **C48** (`C48_false`, `C48_small_sales_fail`, `C48_small_purchases_fail`) – on a flat curve the `2^-30` error of the root is large in units of token B (`blur`). Slope `2*10^-18`, price 1, vault `10^12` A, 999998000000 B out: selling 1000000 B (worth more than 1000000 A) pays 1 A; every sale of at most 500000 B and every purchase for at most `10^8` A is refused. `C46_buy`, `C47_sell` and the `_partial` theorems bound the shortfall for every representable curve.
* **C49** (`C49_stable_pays_nothing`) – the stable curve has no zero check: amplification 1, balances 100 and 3, an offer of 5 is taken and nothing is paid (the user is protected only by the minimum-out argument). The constant product pays everything for nothing when the source side is empty (`C17_empty_source`).
* **C51** (`C51_false`, `C51_round_trip_profit`) – the stable curve rounds the new destination balance down, that is, in the trader's favour. Amplification 1000, balances 10000 and 1000, no fees: 1 in pays 2, and those 2 sold back pay 3. `C51_stable_partial` bounds the loss of a single swap.
* **C52** – the conditions of `C52_swap` name every account a swap depends on. On a pool with an owner trading fee they include the fee account: if its owner closes it, or it is full, every swap with a positive owner fee fails (`C52_fee_account`; linear pools charge no fee and do not depend on it: `C52_linear`).
* **C60** (`C60_false`, `C60_drain`) – on the curve of C03 (slope `19/10^19`, price 0) a fresh pool of any size is drained of token B, to 2·10^9 units, for two units of token A: after a purchase for two, each round "sell 366522339 B for 1 A, buy with 1 A" returns the A vault to 2 and takes out 114372662 B. Validation admits such curves; `Representable` (C01) excludes them. On every valid curve `C60_purchases_partial` holds while nobody sells; on steep curves (as in C03) `C60_steep_partial` holds with sales: all but two of the tokens outside are paid for. When the vault may be emptied it holds on slightly steeper curves whose last token costs at least two units of A (`C60_dear_partial`) or at most 7/10 (`C60_cheap_partial`); in between, rounding the price of the last purchase to the nearest unit can meet the slack of the position in a way the invariant does not exclude.
* **C63** (`C63_false`, `C63_rejected`) – the TypeScript client in `app/` was kept from the original token-swap program: its data start with a byte 0 to 5, no eight-byte tag of this program does, so every instruction it builds ends in `InstructionFallbackNotFound`. (The repository's own tests use Anchor's generated client instead.) Related, not false as stated: `C62_description` shows that the client also "loads" an IDL account as a pool because it ignores the version byte; the program itself rejects such an account.
* **C65** (`C65_stable_false`, `C65_linear_false`, `C65_blind`) – `normalized_value` is the measure the repository's tests use for "a swap does not lose value". On stable pools the computed invariant can fall by a unit. On linear pools the total is shifted right to 32 bits without keeping the exponent, so it says nothing about magnitude: it can halve in a purchase that raises the total, and `B` and `1024·B` measure the same. The code uses the measure only in tests on these curves.
* **C69** is false of single-sided withdrawals from constant-price pools with a trade fee: the fee on half of the
  amount is subtracted before the withdrawal is priced, which makes it cheaper. With a fee of 0.25% a user who joins
  with both tokens and leaves with one after the other gains a token A and 706964 pool tokens (`C69_round_trip_gains`).
* **C70** (`C70_false`) – with slope 12/10^19 and 1905 token A in the vault, selling 119739416 and then 32142274314 token B pays 8 + 1549, selling the sum at once 1556. Half the slope is not a multiple of 10^-18, so it is cut off when squared amounts are priced. Representable curves (C01) and steep ones (as in C03) are not affected.
* **C76** (`C76_false`, `C76_dead`) – `is_curve_param_valid` does not look at the square root. With price 9903520314283042199 and slope 10^-18 every balance of token A is in a band where the root panics: such a pool is created without complaint, no swap on it ever succeeds, and since linear pools allow no withdrawal (C36) its token B are lost. On other curves single balances are affected (C44) and a donation of token A helps.
* **C75** (`C75_deposit_aborts`) – one-sided operations on a nearly emptied constant-price pool can panic instead of reporting an error; the transaction fails in both cases.
* **C78** (`C78_false`) – `SwapError` is numbered from 0, as is spl-token's `TokenError`, and errors of called programs come through unchanged. 1, 3, 4, 5 and 17 are therefore ambiguous to a client that looks only at the number: 1 is `InvalidProgramAddress` or `InsufficientFunds`, 17 `InvalidCloseAuthority` or `AccountFrozen`. The limit error (16) is not affected.
* **C79** (`C79_false`, `C79_withdraw_false`, `C79_helper_false`) – the promise in curve/calculator.rs that one-sided and two-sided ways agree within 0.5% fails for small amounts by rounding, always in favour of the one-sided way. The test helper `check_deposit_token_conversion` compares with something else: it leaves out the first deposit's balances when it computes the second, so that for price 1, balances 1 and 1, a supply of 10^9 and a deposit of 2 (all within the ranges of the property test) it sees 1250000000 against 1000000000.
* **C80** (`C80_false`, `C80_left_behind`, `C80_refused`) – a two-sided withdrawal pays half of the share in each token and cuts each half to what its vault holds, without burning fewer pool tokens. Price 7, all token B sold, 9900 token A in the vault: burning all pool tokens pays 4950 token A. The other 4950 stay in a pool without pool tokens, and the next person to deposit one token A receives all pool tokens and takes them. A one-sided withdrawal of 9900 would have paid everything (`C80_last`). The amounts are also converted to u64 before they are cut, so that on a pool worth 2^65 or more nobody can burn all pool tokens at once.
* **C82** (`C82_untolerated`) – the fuzz test lets seven errors pass; the token program's overflow (a full receiving account) and aborts can occur as well (`C75_deposit_aborts`). A swap cannot fail with `ConversionFailure`.
* **C93** (`C93_false`, `C93_closed`) – the fee account of a pool belongs to somebody, and they can empty and close it at any time. On a pool with an owner fee on withdrawals every withdrawal then fails, whoever makes it, and on one with an owner fee on trades every trade that would issue pool tokens to the owner; nobody but whoever can put a token account back at that address can change this. Pools without the fee in question are not affected (`C93_linear_partial`, `C93_fixed_partial`, `C93_withdraw_partial`).
* **C95** (`C95_false`) – `compute_d` gives up after 32 rounds of Newton's method. From the sum of the balances each round takes off about a third until it is near the solution, so with balances 1 and 2^64-1 and amplification 1 it stops at 43224131147356 where the iteration comes to rest at 15983559458906. Stable pools cannot be created through the program's instructions (C28), so this concerns users of the library only.
* **C100** (`C100_false`) – `inc/token-swap.h` describes a program with four instructions (tags 0 to 3) and a 120-byte account; this program has seven, with eight-byte tags, and 324-byte accounts. Instructions built from it are refused (`C100_refused_partial`) and pools do not read as anything it knows (`C100_unreadable_partial`).
* **C101** (`C101_false`, `C101_false_linear`) – `process_initialize` compares the mints of the two vaults with each other but not with the pool mint. Only one vault has to hold something (token A of a constant-price pool, token B of a linear one), so the other may be an empty account of the pool mint. With price 7 and 5000 token A in the pool another user deposits 4000 token A; the creator sells 1285 of the thousand million pool tokens they were given to the pool for 8995 token A, and the depositor gets 5 back. The theorems that need it assume `Ordinary`.
* **C102** (`C102_sharp`) – a pool token can be made expensive: the creator of a pool with 5000 token A burns all but one of theirs; whoever then deposits 9999 token A with the limit 1 gets one of two pool tokens, and the creator takes 7499 token A. A limit of a few hundred pool tokens or more makes this pointless.
* **C103** (`C103_false`, `C103_stuck`) – a linear pool asks for an empty vault for token A (curve/linear_price.rs, `validate_supply`). Anybody can send a unit of token A to the vault before the pool is created, and as only the pool's derived address could take it out again, no linear pool is ever created with that vault. The creator has to make another vault, or make and use it in one transaction. Constant-price pools are not affected (`C103_fixed_partial`). `C103_exact_partial` and `C103_fixed_partial` assume that the account for the pool's state keeps its size; the runtime guarantees it, but the model of Anchor's IDL instructions allows contents of any length.
* **C104** (`C104_false`, `C104_false_free`) – on constant-product and offset pools an exact one-sided withdrawal lowers the geometric mean of the balances per pool token: the trade fee is subtracted from the amount before the pool tokens to burn are computed, as for constant-price pools (C22), and without fees the cut after twelve digits can favour the one who withdraws. Pools of these curves can only be created through the library, not through a public instruction (C28). The fuzz harness (fuzz/src/instructions.rs) asserts that the value per pool token does not fall, but charges a withdrawal fee larger than the discount. `C104_history_partial` leaves out exact one-sided withdrawals and the owner trading fee, and allows one part in 10^12 for each one-sided deposit (`C105_sharp` shows that some allowance is needed). `C104_draw_partial` covers exact one-sided withdrawals too, on pools without fees on trades, while every operation leaves at least the `t`-th part of the pool tokens: then each costs the others at most `2t²` parts in 10^12. What it leaves out is withdrawals under a trade fee, where the claim is false by far (`C104_false`), and those that leave next to nothing.
* **C105** (`C105_false`, `C105_sharp`) – the maths library adds half a unit to every quotient, which matters for roots of very small numbers: the root of 10^-12 comes out as 1.224744*10^-6. No such number occurs in a deposit, whose radicand is at least one. A one-sided deposit of 2 units to 10^9 mints one pool token of 10^9, which is more than it is worth by one part in 10^18.
* **C106** (`C106_false`) – the owner's fee on a trade is minted in pool tokens rounded up, as on constant-price pools (C23). On a new pool (10^9 pool tokens) of 10^12 A and 10^12 B a trade of 2000 A pays a fee of 2 A, for which the owner gets one pool token worth 1000 A and 999 B; an owner who trades with themselves gains by it. What holds is that each trade costs the others at most one pool token and one part in 10^12.
* **C107** (`C107_false`, `C107_gain`) – on constant-price pools, which anybody can create, the owner fee of a trade is minted in pool tokens, rounded up. On a pool with 10^12 of each token (price 1, 10^9 pool tokens) and an owner fee of one percent, a fee of 2001 is worth a little more than one pool token and mints two. The receiver of the fees trades 200100 A for B, 200100 B for A, withdraws the four pool tokens and has 1998 more A and 1998 more B than before, at the expense of the other holders; a second round brings the same again (example beside `C107_gain`). `C107_twice_partial` bounds what one trade can take by the fee paid and by one pool token.
