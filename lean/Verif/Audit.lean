import Verif.Props.Abort
import Verif.Props.Accuracy
import Verif.Props.Admission
import Verif.Props.Amount
import Verif.Props.Backed
import Verif.Props.Basket
import Verif.Props.Block
import Verif.Props.Chain
import Verif.Props.Claim
import Verif.Props.Client
import Verif.Props.Compare
import Verif.Props.Consent
import Verif.Props.Curves
import Verif.Props.Cut
import Verif.Props.Detour
import Verif.Props.Draw
import Verif.Props.Emptied
import Verif.Props.Enter
import Verif.Props.Every
import Verif.Props.Exchange
import Verif.Props.Exit
import Verif.Props.FixedPoint
import Verif.Props.Freeze
import Verif.Props.Front
import Verif.Props.FrontMany
import Verif.Props.Gift
import Verif.Props.Guard
import Verif.Props.HandOver
import Verif.Props.Header
import Verif.Props.Host
import Verif.Props.Idle
import Verif.Props.Issue
import Verif.Props.Join
import Verif.Props.Leave
import Verif.Props.Level
import Verif.Props.Limit
import Verif.Props.Linear
import Verif.Props.Live
import Verif.Props.Local
import Verif.Props.Outside
import Verif.Props.Own
import Verif.Props.Parts
import Verif.Props.Path
import Verif.Props.Plain
import Verif.Props.Prepare
import Verif.Props.Processor
import Verif.Props.Reference
import Verif.Props.Report
import Verif.Props.Return
import Verif.Props.Room
import Verif.Props.Root
import Verif.Props.Rounds
import Verif.Props.Sample
import Verif.Props.Serve
import Verif.Props.Settle
import Verif.Props.Setup
import Verif.Props.Shares
import Verif.Props.Singles
import Verif.Props.Spot
import Verif.Props.State
import Verif.Props.Steady
import Verif.Props.Steep
import Verif.Props.Supply
import Verif.Props.SwapCurve
import Verif.Props.Twice
import Verif.Props.Unbacked
import Verif.Props.Value
import Verif.Props.Wire

/-
Axioms of every theorem named in MANIFEST.json.  Expected: at most `propext`, `Classical.choice`,
`Quot.sound`.
-/

#print axioms Verif.Props.C08_sqrt_down
#print axioms Verif.Props.C08_sqrt_up
#print axioms Verif.Props.C08_two
#print axioms Verif.Props.C08_powers_of_four
#print axioms Verif.Props.C09_down_total
#print axioms Verif.Props.C09_up_iff
#print axioms Verif.Props.C10_isqrt_down
#print axioms Verif.Props.C10_isqrt_up
#print axioms Verif.Props.C12_round_trip
#print axioms Verif.Props.C12_to_imprecise
#print axioms Verif.Props.C12_to_imprecise_total
#print axioms Verif.Props.C12_floor
#print axioms Verif.Props.C12_ceiling
#print axioms Verif.Props.C12_whole_fixed
#print axioms Verif.Props.C13_mul_whole
#print axioms Verif.Props.C13_div_whole
#print axioms Verif.Props.C13_mul_nearest
#print axioms Verif.Props.C13_mul_comm
#print axioms Verif.Props.C13_mul_fallback
#print axioms Verif.Props.C14_to_spl_partial
#print axioms Verif.Props.C14_half_and_above
#print axioms Verif.Props.C14_false
#print axioms Verif.Props.C01_solvency
#print axioms Verif.Props.C02_exact
#print axioms Verif.Props.C03_sell_buy_partial
#print axioms Verif.Props.C03_steep_partial
#print axioms Verif.Props.C03_false
#print axioms Verif.Props.C04_buy_sell_partial
#print axioms Verif.Props.C04_slack
#print axioms Verif.Props.C04_any_partial
#print axioms Verif.Props.C04_any_slack
#print axioms Verif.Props.C04_false
#print axioms Verif.Props.C05_split
#print axioms Verif.Props.C05_combined_succeeds
#print axioms Verif.Props.C05_many
#print axioms Verif.Props.C06_position_mono
#print axioms Verif.Props.C06_buy_mono
#print axioms Verif.Props.C06_buy_succeeds
#print axioms Verif.Props.C06_sell_mono
#print axioms Verif.Props.C11_params
#print axioms Verif.Props.C11_supply
#print axioms Verif.Props.C44_down_total
#print axioms Verif.Props.C44_up_iff
#print axioms Verif.Props.C44_stuck
#print axioms Verif.Props.C07_swap_bounds
#print axioms Verif.Props.C15_validate
#print axioms Verif.Props.C15_fee
#print axioms Verif.Props.C16_curve
#print axioms Verif.Props.C16_swap
#print axioms Verif.Props.C16_history
#print axioms Verif.Props.C17_product
#print axioms Verif.Props.C17_offset
#print axioms Verif.Props.C17_no_profit
#print axioms Verif.Props.C17_history
#print axioms Verif.Props.C17_offset_history
#print axioms Verif.Props.C17_empty_source
#print axioms Verif.Props.C18_deposit_partial
#print axioms Verif.Props.C18_deposit_even_partial
#print axioms Verif.Props.C18_false
#print axioms Verif.Props.C19_constant_price
#print axioms Verif.Props.C19_product
#print axioms Verif.Props.C20_deposit
#print axioms Verif.Props.C20_withdraw
#print axioms Verif.Props.C21_deposit_single
#print axioms Verif.Props.C22_withdraw_partial
#print axioms Verif.Props.C22_withdraw_no_fee_partial
#print axioms Verif.Props.C22_false
#print axioms Verif.Props.C23_owner_fee
#print axioms Verif.Props.C42_history
#print axioms Verif.Props.C43_swap
#print axioms Verif.Props.C43_conversion
#print axioms Verif.Props.C24_round_trip
#print axioms Verif.Props.C24_wrong_size
#print axioms Verif.Props.C24_advertised_size
#print axioms Verif.Props.C25_accepts
#print axioms Verif.Props.C25_faithful
#print axioms Verif.Props.C25_no_panic
#print axioms Verif.Props.C27_initialize
#print axioms Verif.Props.C29_swap
#print axioms Verif.Props.C30_deposit_all
#print axioms Verif.Props.C30_deposit_single
#print axioms Verif.Props.C31_withdraw_all
#print axioms Verif.Props.C31_withdraw_single
#print axioms Verif.Props.C32_conservation
#print axioms Verif.Props.C32_pool_mint
#print axioms Verif.Props.C33_no_theft
#print axioms Verif.Props.C36_no_withdrawals
#print axioms Verif.Props.C37_no_deposits_partial
#print axioms Verif.Props.C37_false
#print axioms Verif.Props.C39_minted_to_fee_account
#print axioms Verif.Props.C39_no_host_fee
#print axioms Verif.Props.C40_constraints
#print axioms Verif.Props.C40_production
#print axioms Verif.Props.C40_no_linear
#print axioms Verif.Props.C26_pool_forever
#print axioms Verif.Props.C26_init_once
#print axioms Verif.Props.C28_pool_kinds
#print axioms Verif.Props.C34_isolated
#print axioms Verif.Props.C35_custody
#print axioms Verif.Props.C38_no_charges
#print axioms Verif.Props.C41_solvency
#print axioms Verif.Props.C41_exact
#print axioms Verif.Props.C45_position
#print axioms Verif.Props.C45_position_unique
#print axioms Verif.Props.C46_buy
#print axioms Verif.Props.C47_sell
#print axioms Verif.Props.C48_sell_partial
#print axioms Verif.Props.C48_buy_partial
#print axioms Verif.Props.C48_false
#print axioms Verif.Props.C48_small_sales_fail
#print axioms Verif.Props.C48_small_purchases_fail
#print axioms Verif.Props.C49_pays
#print axioms Verif.Props.C49_takes
#print axioms Verif.Props.C49_stable_pays_nothing
#print axioms Verif.Props.C50_product
#print axioms Verif.Props.C50_constant_price
#print axioms Verif.Props.C50_offset
#print axioms Verif.Props.C51_stable_partial
#print axioms Verif.Props.C51_false
#print axioms Verif.Props.C51_round_trip_profit
#print axioms Verif.Props.C52_swap
#print axioms Verif.Props.C52_linear
#print axioms Verif.Props.C52_fee_account
#print axioms Verif.Props.C53_deposit_all
#print axioms Verif.Props.C53_withdraw_all
#print axioms Verif.Props.C53_deposit_single
#print axioms Verif.Props.C53_withdraw_single
#print axioms Verif.Props.C54_initialize
#print axioms Verif.Props.C55_burn
#print axioms Verif.Props.C55_mint
#print axioms Verif.Props.C55_price_burn
#print axioms Verif.Props.C55_price_mint
#print axioms Verif.Props.C55_price_mint_succeeds
#print axioms Verif.Props.C55_deposit_single
#print axioms Verif.Props.C55_withdraw_single
#print axioms Verif.Props.C55_withdraw_single_succeeds
#print axioms Verif.Props.C56_initialize
#print axioms Verif.Props.C57_host
#print axioms Verif.Props.C58_frozen
#print axioms Verif.Props.C58_swap_thawed
#print axioms Verif.Props.C58_allowance
#print axioms Verif.Props.C59_root_deposit
#print axioms Verif.Props.C59_root_withdraw
#print axioms Verif.Props.C59_root_deposit_fair
#print axioms Verif.Props.C59_root_withdraw_fair
#print axioms Verif.Props.C59_stable_deposit
#print axioms Verif.Props.C59_stable_withdraw
#print axioms Verif.Props.C59_stable_withdraw_charge
#print axioms Verif.Props.C60_false
#print axioms Verif.Props.C60_drain
#print axioms Verif.Props.C60_purchases_partial
#print axioms Verif.Props.C60_steep_partial
#print axioms Verif.Props.C60_chain_partial
#print axioms Verif.Props.C60_dear_partial
#print axioms Verif.Props.C60_cheap_partial
#print axioms Verif.Props.C60_executions_partial
#print axioms Verif.Props.C61_tags
#print axioms Verif.Props.C61_data
#print axioms Verif.Props.C61_unambiguous
#print axioms Verif.Props.C61_entry
#print axioms Verif.Props.C61_not_idl
#print axioms Verif.Props.C61_writes
#print axioms Verif.Props.C61_no_theft
#print axioms Verif.Props.C62_numbers
#print axioms Verif.Props.C62_faithful
#print axioms Verif.Props.C62_authority
#print axioms Verif.Props.C62_origin
#print axioms Verif.Props.C62_description
#print axioms Verif.Props.C63_false
#print axioms Verif.Props.C63_rejected
#print axioms Verif.Props.C63_tag_partial
#print axioms Verif.Props.C64_sale
#print axioms Verif.Props.C64_everything
#print axioms Verif.Props.C64_purchase
#print axioms Verif.Props.C65_price
#print axioms Verif.Props.C65_product
#print axioms Verif.Props.C65_offset
#print axioms Verif.Props.C65_stable_false
#print axioms Verif.Props.C65_linear_false
#print axioms Verif.Props.C65_false
#print axioms Verif.Props.C65_linear_buy_partial
#print axioms Verif.Props.C65_linear_sell_partial
#print axioms Verif.Props.C65_blind
#print axioms Verif.Props.C66_contract
#print axioms Verif.Props.C66_executions
#print axioms Verif.Props.C66_vaults
#print axioms Verif.Props.C66_delegate_drains
#print axioms Verif.Props.C66_close_removes
#print axioms Verif.Props.C66_minter_inflates
#print axioms Verif.Props.C66_freezer_freezes
#print axioms Verif.Props.C66_handover
#print axioms Verif.Props.C67_local
#print axioms Verif.Props.C67_unaffected
#print axioms Verif.Props.C67_unaffected_all
#print axioms Verif.Props.C67_commute
#print axioms Verif.Props.C67_same_pool
#print axioms Verif.Props.C68_swap
#print axioms Verif.Props.C68_deposit_single
#print axioms Verif.Props.C68_withdraw_single
#print axioms Verif.Props.C68_deposit_all
#print axioms Verif.Props.C68_withdraw_all
#print axioms Verif.Props.C69_step_partial
#print axioms Verif.Props.C69_withdraw_single_partial
#print axioms Verif.Props.C69_history_partial
#print axioms Verif.Props.C69_round_trip_gains
#print axioms Verif.Props.C69_false
#print axioms Verif.Props.C70_false
#print axioms Verif.Props.C70_split_sale_partial
#print axioms Verif.Props.C70_steep_partial
#print axioms Verif.Props.C70_many_partial
#print axioms Verif.Props.C71_buy_price
#print axioms Verif.Props.C71_buy_spot
#print axioms Verif.Props.C71_later_buyer
#print axioms Verif.Props.C71_sell_price
#print axioms Verif.Props.C71_sell_spot
#print axioms Verif.Props.C72_handover
#print axioms Verif.Props.C72_purchase
#print axioms Verif.Props.C72_every
#print axioms Verif.Props.C73_accounted
#print axioms Verif.Props.C73_fresh
#print axioms Verif.Props.C73_covered
#print axioms Verif.Props.C73_burnable
#print axioms Verif.Props.C73_zero
#print axioms Verif.Props.C73_solvent
#print axioms Verif.Props.C74_potential
#print axioms Verif.Props.C74_net_cost
#print axioms Verif.Props.C74_cycle
#print axioms Verif.Props.C74_exits
#print axioms Verif.Props.C74_chain
#print axioms Verif.Props.C75_abort
#print axioms Verif.Props.C75_never
#print axioms Verif.Props.C75_stuck
#print axioms Verif.Props.C75_deposit_aborts
#print axioms Verif.Props.C75_withdrawal_aborts
#print axioms Verif.Props.C75_swap_aborts
#print axioms Verif.Props.C76_false
#print axioms Verif.Props.C76_locked
#print axioms Verif.Props.C76_dead
#print axioms Verif.Props.C76_release_partial
#print axioms Verif.Props.C76_tokens_partial
#print axioms Verif.Props.C76_zero_partial
#print axioms Verif.Props.C77_allowance
#print axioms Verif.Props.C77_untouched
#print axioms Verif.Props.C77_all_steps
#print axioms Verif.Props.C77_only_steps
#print axioms Verif.Props.C77_multisig
#print axioms Verif.Props.C77_spends
#print axioms Verif.Props.C78_false
#print axioms Verif.Props.C78_sole_partial
#print axioms Verif.Props.C78_limit
#print axioms Verif.Props.C78_abort
#print axioms Verif.Props.C78_existing_partial
#print axioms Verif.Props.C78_swap_partial
#print axioms Verif.Props.C79_false
#print axioms Verif.Props.C79_withdraw_false
#print axioms Verif.Props.C79_helper_false
#print axioms Verif.Props.C79_deposit_partial
#print axioms Verif.Props.C79_deposit_close_partial
#print axioms Verif.Props.C79_withdraw_partial
#print axioms Verif.Props.C79_withdraw_close_partial
#print axioms Verif.Props.C80_false
#print axioms Verif.Props.C80_left_behind
#print axioms Verif.Props.C80_share_partial
#print axioms Verif.Props.C80_single
#print axioms Verif.Props.C80_refused
#print axioms Verif.Props.C80_last
#print axioms Verif.Props.C80_everything
#print axioms Verif.Props.C81_swap
#print axioms Verif.Props.C81_deposit_all
#print axioms Verif.Props.C81_deposit_single
#print axioms Verif.Props.C81_withdraw_all
#print axioms Verif.Props.C81_withdraw_single
#print axioms Verif.Props.C82_amounts
#print axioms Verif.Props.C82_linear
#print axioms Verif.Props.C82_tolerated
#print axioms Verif.Props.C82_untolerated
#print axioms Verif.Props.C83_sale
#print axioms Verif.Props.C83_refused
#print axioms Verif.Props.C83_purchase
#print axioms Verif.Props.C83_buyout
#print axioms Verif.Props.C83_purchase_other
#print axioms Verif.Props.C83_dust
#print axioms Verif.Props.C84_trade
#print axioms Verif.Props.C84_abort
#print axioms Verif.Props.C84_fees
#print axioms Verif.Props.C84_ledger
#print axioms Verif.Props.C85_setup
#print axioms Verif.Props.C85_execution
#print axioms Verif.Props.C86_consent
#print axioms Verif.Props.C86_pool_tokens
#print axioms Verif.Props.C86_spendable
#print axioms Verif.Props.C87_scarce
#print axioms Verif.Props.C87_room
#print axioms Verif.Props.C87_trade
#print axioms Verif.Props.C87_withdraw_all
#print axioms Verif.Props.C87_withdraw_single
#print axioms Verif.Props.C88_share
#print axioms Verif.Props.C88_collect
#print axioms Verif.Props.C89_purchase
#print axioms Verif.Props.C89_quoted_purchase
#print axioms Verif.Props.C89_sale
#print axioms Verif.Props.C89_quoted_sale
#print axioms Verif.Props.C89_purchase_many
#print axioms Verif.Props.C89_sale_many
#print axioms Verif.Props.C89_quoted_purchase_many
#print axioms Verif.Props.C89_quoted_sale_many
#print axioms Verif.Props.C90_quote
#print axioms Verif.Props.C90_ledger
#print axioms Verif.Props.C90_stays
#print axioms Verif.Props.C90_trade
#print axioms Verif.Props.C91_order
#print axioms Verif.Props.C91_almost
#print axioms Verif.Props.C91_monotone
#print axioms Verif.Props.C91_squares
#print axioms Verif.Props.C91_whole
#print axioms Verif.Props.C91_limit
#print axioms Verif.Props.C92_rounds
#print axioms Verif.Props.C93_ready
#print axioms Verif.Props.C93_linear_partial
#print axioms Verif.Props.C93_fixed_partial
#print axioms Verif.Props.C93_withdraw_partial
#print axioms Verif.Props.C93_single_partial
#print axioms Verif.Props.C93_trade_owner_partial
#print axioms Verif.Props.C93_withdraw_owner_partial
#print axioms Verif.Props.C93_single_owner_partial
#print axioms Verif.Props.C93_closed
#print axioms Verif.Props.C93_false
#print axioms Verif.Props.C94_types
#print axioms Verif.Props.C94_matched
#print axioms Verif.Props.C94_round_trip
#print axioms Verif.Props.C94_in_place
#print axioms Verif.Props.C94_clone
#print axioms Verif.Props.C94_eq
#print axioms Verif.Props.C94_mismatch
#print axioms Verif.Props.C95_invariant_partial
#print axioms Verif.Props.C95_destination_partial
#print axioms Verif.Props.C95_swap_partial
#print axioms Verif.Props.C95_accuracy_partial
#print axioms Verif.Props.C95_close_partial
#print axioms Verif.Props.C95_settled_partial
#print axioms Verif.Props.C95_settled_destination_partial
#print axioms Verif.Props.C95_settled_swap_partial
#print axioms Verif.Props.C95_false
#print axioms Verif.Props.C96_consent
#print axioms Verif.Props.C96_fixed
#print axioms Verif.Props.C96_not_pool
#print axioms Verif.Props.C96_pool_tokens
#print axioms Verif.Props.C97_position
#print axioms Verif.Props.C97_ordinary
#print axioms Verif.Props.C97_buy
#print axioms Verif.Props.C97_sell
#print axioms Verif.Props.C97_buy_price
#print axioms Verif.Props.C97_buy_spot
#print axioms Verif.Props.C97_sell_spot
#print axioms Verif.Props.C97_later_buyer
#print axioms Verif.Props.C98_curve_sell
#print axioms Verif.Props.C98_curve_buy
#print axioms Verif.Props.C98_sale
#print axioms Verif.Props.C98_everything
#print axioms Verif.Props.C98_purchase
#print axioms Verif.Props.C99_level
#print axioms Verif.Props.C99_emptied
#print axioms Verif.Props.C99_cycle
#print axioms Verif.Props.C99_chain
#print axioms Verif.Props.C99_chain_emptied
#print axioms Verif.Props.C100_false
#print axioms Verif.Props.C100_refused_partial
#print axioms Verif.Props.C100_unreadable_partial
#print axioms Verif.Props.C101_creation_partial
#print axioms Verif.Props.C101_side_partial
#print axioms Verif.Props.C101_false
#print axioms Verif.Props.C101_false_linear
#print axioms Verif.Props.C102_single
#print axioms Verif.Props.C102_first
#print axioms Verif.Props.C102_both
#print axioms Verif.Props.C102_sharp
#print axioms Verif.Props.C103_safe
#print axioms Verif.Props.C103_exact_partial
#print axioms Verif.Props.C103_fixed_partial
#print axioms Verif.Props.C103_stuck
#print axioms Verif.Props.C103_false
#print axioms Verif.Props.C104_history_partial
#print axioms Verif.Props.C104_share_partial
#print axioms Verif.Props.C104_draw_partial
#print axioms Verif.Props.C104_draw_share_partial
#print axioms Verif.Props.C104_false
#print axioms Verif.Props.C104_false_free
#print axioms Verif.Props.C105_root
#print axioms Verif.Props.C105_close_partial
#print axioms Verif.Props.C105_squares
#print axioms Verif.Props.C105_near
#print axioms Verif.Props.C105_monotone
#print axioms Verif.Props.C105_deposit
#print axioms Verif.Props.C105_sharp
#print axioms Verif.Props.C105_value
#print axioms Verif.Props.C105_false
#print axioms Verif.Props.C106_swap
#print axioms Verif.Props.C106_root
#print axioms Verif.Props.C106_history_partial
#print axioms Verif.Props.C106_share_partial
#print axioms Verif.Props.C106_false
#print axioms Verif.Props.C107_twice_partial
#print axioms Verif.Props.C107_curve
#print axioms Verif.Props.C107_gain
#print axioms Verif.Props.C107_false
