import Verif.Model.Opcode
import Verif.Model.PyPath

/-!
# Model of the listing of instructions, /repo/pywasm/core.py:345-362 and 718-723, and of the names of opcodes,
/repo/pywasm/opcode.py:441-878
-/

namespace Pywasm

/-- The name of an opcode, /repo/pywasm/opcode.py:441-878 (`pywasm.opcode.name[o]`). -/
def Opc.name : Opc → String
  | .unreachable => "unreachable"
  | .nop => "nop"
  | .block => "block"
  | .loop => "loop"
  | .if_then => "if"
  | .else_fi => "else"
  | .end_fi => "end"
  | .br => "br"
  | .br_if => "br_if"
  | .br_table => "br_table"
  | .return_call => "return"
  | .call => "call"
  | .call_indirect => "call_indirect"
  | .drop => "drop"
  | .select => "select"
  | .select_type => "select"
  | .local_get => "local.get"
  | .local_set => "local.set"
  | .local_tee => "local.tee"
  | .global_get => "global.get"
  | .global_set => "global.set"
  | .table_get => "table.get"
  | .table_set => "table.set"
  | .load .i32_load => "i32.load"
  | .load .i64_load => "i64.load"
  | .load .f32_load => "f32.load"
  | .load .f64_load => "f64.load"
  | .load .i32_load8_s => "i32.load8_s"
  | .load .i32_load8_u => "i32.load8_u"
  | .load .i32_load16_s => "i32.load16_s"
  | .load .i32_load16_u => "i32.load16_u"
  | .load .i64_load8_s => "i64.load8_s"
  | .load .i64_load8_u => "i64.load8_u"
  | .load .i64_load16_s => "i64.load16_s"
  | .load .i64_load16_u => "i64.load16_u"
  | .load .i64_load32_s => "i64.load32_s"
  | .load .i64_load32_u => "i64.load32_u"
  | .store .i32_store => "i32.store"
  | .store .i64_store => "i64.store"
  | .store .f32_store => "f32.store"
  | .store .f64_store => "f64.store"
  | .store .i32_store8 => "i32.store8"
  | .store .i32_store16 => "i32.store16"
  | .store .i64_store8 => "i64.store8"
  | .store .i64_store16 => "i64.store16"
  | .store .i64_store32 => "i64.store32"
  | .memory_size => "memory.size"
  | .memory_grow => "memory.grow"
  | .i32_const => "i32.const"
  | .i64_const => "i64.const"
  | .f32_const => "f32.const"
  | .f64_const => "f64.const"
  | .int .i32_eqz => "i32.eqz"
  | .int .i32_eq => "i32.eq"
  | .int .i32_ne => "i32.ne"
  | .int .i32_lt_s => "i32.lt_s"
  | .int .i32_lt_u => "i32.lt_u"
  | .int .i32_gt_s => "i32.gt_s"
  | .int .i32_gt_u => "i32.gt_u"
  | .int .i32_le_s => "i32.le_s"
  | .int .i32_le_u => "i32.le_u"
  | .int .i32_ge_s => "i32.ge_s"
  | .int .i32_ge_u => "i32.ge_u"
  | .int .i64_eqz => "i64.eqz"
  | .int .i64_eq => "i64.eq"
  | .int .i64_ne => "i64.ne"
  | .int .i64_lt_s => "i64.lt_s"
  | .int .i64_lt_u => "i64.lt_u"
  | .int .i64_gt_s => "i64.gt_s"
  | .int .i64_gt_u => "i64.gt_u"
  | .int .i64_le_s => "i64.le_s"
  | .int .i64_le_u => "i64.le_u"
  | .int .i64_ge_s => "i64.ge_s"
  | .int .i64_ge_u => "i64.ge_u"
  | .flt .f32_eq => "f32.eq"
  | .flt .f32_ne => "f32.ne"
  | .flt .f32_lt => "f32.lt"
  | .flt .f32_gt => "f32.gt"
  | .flt .f32_le => "f32.le"
  | .flt .f32_ge => "f32.ge"
  | .flt .f64_eq => "f64.eq"
  | .flt .f64_ne => "f64.ne"
  | .flt .f64_lt => "f64.lt"
  | .flt .f64_gt => "f64.gt"
  | .flt .f64_le => "f64.le"
  | .flt .f64_ge => "f64.ge"
  | .int .i32_clz => "i32.clz"
  | .int .i32_ctz => "i32.ctz"
  | .int .i32_popcnt => "i32.popcnt"
  | .int .i32_add => "i32.add"
  | .int .i32_sub => "i32.sub"
  | .int .i32_mul => "i32.mul"
  | .int .i32_div_s => "i32.div_s"
  | .int .i32_div_u => "i32.div_u"
  | .int .i32_rem_s => "i32.rem_s"
  | .int .i32_rem_u => "i32.rem_u"
  | .int .i32_and => "i32.and"
  | .int .i32_or => "i32.or"
  | .int .i32_xor => "i32.xor"
  | .int .i32_shl => "i32.shl"
  | .int .i32_shr_s => "i32.shr_s"
  | .int .i32_shr_u => "i32.shr_u"
  | .int .i32_rotl => "i32.rotl"
  | .int .i32_rotr => "i32.rotr"
  | .int .i64_clz => "i64.clz"
  | .int .i64_ctz => "i64.ctz"
  | .int .i64_popcnt => "i64.popcnt"
  | .int .i64_add => "i64.add"
  | .int .i64_sub => "i64.sub"
  | .int .i64_mul => "i64.mul"
  | .int .i64_div_s => "i64.div_s"
  | .int .i64_div_u => "i64.div_u"
  | .int .i64_rem_s => "i64.rem_s"
  | .int .i64_rem_u => "i64.rem_u"
  | .int .i64_and => "i64.and"
  | .int .i64_or => "i64.or"
  | .int .i64_xor => "i64.xor"
  | .int .i64_shl => "i64.shl"
  | .int .i64_shr_s => "i64.shr_s"
  | .int .i64_shr_u => "i64.shr_u"
  | .int .i64_rotl => "i64.rotl"
  | .int .i64_rotr => "i64.rotr"
  | .flt .f32_abs => "f32.abs"
  | .flt .f32_neg => "f32.neg"
  | .flt .f32_ceil => "f32.ceil"
  | .flt .f32_floor => "f32.floor"
  | .flt .f32_trunc => "f32.trunc"
  | .flt .f32_nearest => "f32.nearest"
  | .flt .f32_sqrt => "f32.sqrt"
  | .flt .f32_add => "f32.add"
  | .flt .f32_sub => "f32.sub"
  | .flt .f32_mul => "f32.mul"
  | .flt .f32_div => "f32.div"
  | .flt .f32_min => "f32.min"
  | .flt .f32_max => "f32.max"
  | .flt .f32_copysign => "f32.copysign"
  | .flt .f64_abs => "f64.abs"
  | .flt .f64_neg => "f64.neg"
  | .flt .f64_ceil => "f64.ceil"
  | .flt .f64_floor => "f64.floor"
  | .flt .f64_trunc => "f64.trunc"
  | .flt .f64_nearest => "f64.nearest"
  | .flt .f64_sqrt => "f64.sqrt"
  | .flt .f64_add => "f64.add"
  | .flt .f64_sub => "f64.sub"
  | .flt .f64_mul => "f64.mul"
  | .flt .f64_div => "f64.div"
  | .flt .f64_min => "f64.min"
  | .flt .f64_max => "f64.max"
  | .flt .f64_copysign => "f64.copysign"
  | .int .i32_wrap_i64 => "i32.wrap_i64"
  | .flt .i32_trunc_f32_s => "i32.trunc_f32_s"
  | .flt .i32_trunc_f32_u => "i32.trunc_f32_u"
  | .flt .i32_trunc_f64_s => "i32.trunc_f64_s"
  | .flt .i32_trunc_f64_u => "i32.trunc_f64_u"
  | .int .i64_extend_i32_s => "i64.extend_i32_s"
  | .int .i64_extend_i32_u => "i64.extend_i32_u"
  | .flt .i64_trunc_f32_s => "i64.trunc_f32_s"
  | .flt .i64_trunc_f32_u => "i64.trunc_f32_u"
  | .flt .i64_trunc_f64_s => "i64.trunc_f64_s"
  | .flt .i64_trunc_f64_u => "i64.trunc_f64_u"
  | .flt .f32_convert_i32_s => "f32.convert_i32_s"
  | .flt .f32_convert_i32_u => "f32.convert_i32_u"
  | .flt .f32_convert_i64_s => "f32.convert_i64_s"
  | .flt .f32_convert_i64_u => "f32.convert_i64_u"
  | .flt .f32_demote_f64 => "f32.demote_f64"
  | .flt .f64_convert_i32_s => "f64.convert_i32_s"
  | .flt .f64_convert_i32_u => "f64.convert_i32_u"
  | .flt .f64_convert_i64_s => "f64.convert_i64_s"
  | .flt .f64_convert_i64_u => "f64.convert_i64_u"
  | .flt .f64_promote_f32 => "f64.promote_f32"
  | .flt .i32_reinterpret_f32 => "i32.reinterpret_f32"
  | .flt .i64_reinterpret_f64 => "i64.reinterpret_f64"
  | .flt .f32_reinterpret_i32 => "f32.reinterpret_i32"
  | .flt .f64_reinterpret_i64 => "f64.reinterpret_i64"
  | .int .i32_extend8_s => "i32.extend8_s"
  | .int .i32_extend16_s => "i32.extend16_s"
  | .int .i64_extend8_s => "i64.extend8_s"
  | .int .i64_extend16_s => "i64.extend16_s"
  | .int .i64_extend32_s => "i64.extend32_s"
  | .ref_null => "ref.null"
  | .ref_is_null => "ref.is_null"
  | .ref_func => "ref.func"
  | .flt .i32_trunc_sat_f32_s => "i32.trunc_sat_f32_s"
  | .flt .i32_trunc_sat_f32_u => "i32.trunc_sat_f32_u"
  | .flt .i32_trunc_sat_f64_s => "i32.trunc_sat_f64_s"
  | .flt .i32_trunc_sat_f64_u => "i32.trunc_sat_f64_u"
  | .flt .i64_trunc_sat_f32_s => "i64.trunc_sat_f32_s"
  | .flt .i64_trunc_sat_f32_u => "i64.trunc_sat_f32_u"
  | .flt .i64_trunc_sat_f64_s => "i64.trunc_sat_f64_s"
  | .flt .i64_trunc_sat_f64_u => "i64.trunc_sat_f64_u"
  | .memory_init => "memory.init"
  | .data_drop => "data.drop"
  | .memory_copy => "memory.copy"
  | .memory_fill => "memory.fill"
  | .table_init => "table.init"
  | .elem_drop => "elem.drop"
  | .table_copy => "table.copy"
  | .table_grow => "table.grow"
  | .table_size => "table.size"
  | .table_fill => "table.fill"
  | .load .v128_load => "v128.load"
  | .load .v128_load8x8_s => "v128.load8x8_s"
  | .load .v128_load8x8_u => "v128.load8x8_u"
  | .load .v128_load16x4_s => "v128.load16x4_s"
  | .load .v128_load16x4_u => "v128.load16x4_u"
  | .load .v128_load32x2_s => "v128.load32x2_s"
  | .load .v128_load32x2_u => "v128.load32x2_u"
  | .load .v128_load8_splat => "v128.load8_splat"
  | .load .v128_load16_splat => "v128.load16_splat"
  | .load .v128_load32_splat => "v128.load32_splat"
  | .load .v128_load64_splat => "v128.load64_splat"
  | .store .v128_store => "v128.store"
  | .v128_const => "v128.const"
  | .i8x16_shuffle => "i8x16.shuffle"
  | .vec .i8x16_swizzle => "i8x16.swizzle"
  | .vec .i8x16_splat => "i8x16.splat"
  | .vec .i16x8_splat => "i16x8.splat"
  | .vec .i32x4_splat => "i32x4.splat"
  | .vec .i64x2_splat => "i64x2.splat"
  | .vec .f32x4_splat => "f32x4.splat"
  | .vec .f64x2_splat => "f64x2.splat"
  | .lane .i8x16_extract_lane_s => "i8x16.extract_lane_s"
  | .lane .i8x16_extract_lane_u => "i8x16.extract_lane_u"
  | .lane .i8x16_replace_lane => "i8x16.replace_lane"
  | .lane .i16x8_extract_lane_s => "i16x8.extract_lane_s"
  | .lane .i16x8_extract_lane_u => "i16x8.extract_lane_u"
  | .lane .i16x8_replace_lane => "i16x8.replace_lane"
  | .lane .i32x4_extract_lane => "i32x4.extract_lane"
  | .lane .i32x4_replace_lane => "i32x4.replace_lane"
  | .lane .i64x2_extract_lane => "i64x2.extract_lane"
  | .lane .i64x2_replace_lane => "i64x2.replace_lane"
  | .lane .f32x4_extract_lane => "f32x4.extract_lane"
  | .lane .f32x4_replace_lane => "f32x4.replace_lane"
  | .lane .f64x2_extract_lane => "f64x2.extract_lane"
  | .lane .f64x2_replace_lane => "f64x2.replace_lane"
  | .vec .i8x16_eq => "i8x16.eq"
  | .vec .i8x16_ne => "i8x16.ne"
  | .vec .i8x16_lt_s => "i8x16.lt_s"
  | .vec .i8x16_lt_u => "i8x16.lt_u"
  | .vec .i8x16_gt_s => "i8x16.gt_s"
  | .vec .i8x16_gt_u => "i8x16.gt_u"
  | .vec .i8x16_le_s => "i8x16.le_s"
  | .vec .i8x16_le_u => "i8x16.le_u"
  | .vec .i8x16_ge_s => "i8x16.ge_s"
  | .vec .i8x16_ge_u => "i8x16.ge_u"
  | .vec .i16x8_eq => "i16x8.eq"
  | .vec .i16x8_ne => "i16x8.ne"
  | .vec .i16x8_lt_s => "i16x8.lt_s"
  | .vec .i16x8_lt_u => "i16x8.lt_u"
  | .vec .i16x8_gt_s => "i16x8.gt_s"
  | .vec .i16x8_gt_u => "i16x8.gt_u"
  | .vec .i16x8_le_s => "i16x8.le_s"
  | .vec .i16x8_le_u => "i16x8.le_u"
  | .vec .i16x8_ge_s => "i16x8.ge_s"
  | .vec .i16x8_ge_u => "i16x8.ge_u"
  | .vec .i32x4_eq => "i32x4.eq"
  | .vec .i32x4_ne => "i32x4.ne"
  | .vec .i32x4_lt_s => "i32x4.lt_s"
  | .vec .i32x4_lt_u => "i32x4.lt_u"
  | .vec .i32x4_gt_s => "i32x4.gt_s"
  | .vec .i32x4_gt_u => "i32x4.gt_u"
  | .vec .i32x4_le_s => "i32x4.le_s"
  | .vec .i32x4_le_u => "i32x4.le_u"
  | .vec .i32x4_ge_s => "i32x4.ge_s"
  | .vec .i32x4_ge_u => "i32x4.ge_u"
  | .vec .f32x4_eq => "f32x4.eq"
  | .vec .f32x4_ne => "f32x4.ne"
  | .vec .f32x4_lt => "f32x4.lt"
  | .vec .f32x4_gt => "f32x4.gt"
  | .vec .f32x4_le => "f32x4.le"
  | .vec .f32x4_ge => "f32x4.ge"
  | .vec .f64x2_eq => "f64x2.eq"
  | .vec .f64x2_ne => "f64x2.ne"
  | .vec .f64x2_lt => "f64x2.lt"
  | .vec .f64x2_gt => "f64x2.gt"
  | .vec .f64x2_le => "f64x2.le"
  | .vec .f64x2_ge => "f64x2.ge"
  | .vec .v128_not => "v128.not"
  | .vec .v128_and => "v128.and"
  | .vec .v128_andnot => "v128.andnot"
  | .vec .v128_or => "v128.or"
  | .vec .v128_xor => "v128.xor"
  | .vec .v128_bitselect => "v128.bitselect"
  | .vec .v128_any_true => "v128.any_true"
  | .load_lane .w8 => "v128.load8_lane"
  | .load_lane .w16 => "v128.load16_lane"
  | .load_lane .w32 => "v128.load32_lane"
  | .load_lane .w64 => "v128.load64_lane"
  | .store_lane .w8 => "v128.store8_lane"
  | .store_lane .w16 => "v128.store16_lane"
  | .store_lane .w32 => "v128.store32_lane"
  | .store_lane .w64 => "v128.store64_lane"
  | .load .v128_load32_zero => "v128.load32_zero"
  | .load .v128_load64_zero => "v128.load64_zero"
  | .vec .f32x4_demote_f64x2_zero => "f32x4.demote_f64x2_zero"
  | .vec .f64x2_promote_low_f32x4 => "f64x2.promote_low_f32x4"
  | .vec .i8x16_abs => "i8x16.abs"
  | .vec .i8x16_neg => "i8x16.neg"
  | .vec .i8x16_popcnt => "i8x16.popcnt"
  | .vec .i8x16_all_true => "i8x16.all_true"
  | .vec .i8x16_bitmask => "i8x16.bitmask"
  | .vec .i8x16_narrow_i16x8_s => "i8x16.narrow_i16x8_s"
  | .vec .i8x16_narrow_i16x8_u => "i8x16.narrow_i16x8_u"
  | .vec .f32x4_ceil => "f32x4.ceil"
  | .vec .f32x4_floor => "f32x4.floor"
  | .vec .f32x4_trunc => "f32x4.trunc"
  | .vec .f32x4_nearest => "f32x4.nearest"
  | .vec .i8x16_shl => "i8x16.shl"
  | .vec .i8x16_shr_s => "i8x16.shr_s"
  | .vec .i8x16_shr_u => "i8x16.shr_u"
  | .vec .i8x16_add => "i8x16.add"
  | .vec .i8x16_add_sat_s => "i8x16.add_sat_s"
  | .vec .i8x16_add_sat_u => "i8x16.add_sat_u"
  | .vec .i8x16_sub => "i8x16.sub"
  | .vec .i8x16_sub_sat_s => "i8x16.sub_sat_s"
  | .vec .i8x16_sub_sat_u => "i8x16.sub_sat_u"
  | .vec .f64x2_ceil => "f64x2.ceil"
  | .vec .f64x2_floor => "f64x2.floor"
  | .vec .i8x16_min_s => "i8x16.min_s"
  | .vec .i8x16_min_u => "i8x16.min_u"
  | .vec .i8x16_max_s => "i8x16.max_s"
  | .vec .i8x16_max_u => "i8x16.max_u"
  | .vec .f64x2_trunc => "f64x2.trunc"
  | .vec .i8x16_avgr_u => "i8x16.avgr_u"
  | .vec .i16x8_extadd_pairwise_i8x16_s => "i16x8.extadd_pairwise_i8x16_s"
  | .vec .i16x8_extadd_pairwise_i8x16_u => "i16x8.extadd_pairwise_i8x16_u"
  | .vec .i32x4_extadd_pairwise_i16x8_s => "i32x4.extadd_pairwise_i16x8_s"
  | .vec .i32x4_extadd_pairwise_i16x8_u => "i32x4.extadd_pairwise_i16x8_u"
  | .vec .i16x8_abs => "i16x8.abs"
  | .vec .i16x8_neg => "i16x8.neg"
  | .vec .i16x8_q15mulr_sat_s => "i16x8.q15mulr_sat_s"
  | .vec .i16x8_all_true => "i16x8.all_true"
  | .vec .i16x8_bitmask => "i16x8.bitmask"
  | .vec .i16x8_narrow_i32x4_s => "i16x8.narrow_i32x4_s"
  | .vec .i16x8_narrow_i32x4_u => "i16x8.narrow_i32x4_u"
  | .vec .i16x8_extend_low_i8x16_s => "i16x8.extend_low_i8x16_s"
  | .vec .i16x8_extend_high_i8x16_s => "i16x8.extend_high_i8x16_s"
  | .vec .i16x8_extend_low_i8x16_u => "i16x8.extend_low_i8x16_u"
  | .vec .i16x8_extend_high_i8x16_u => "i16x8.extend_high_i8x16_u"
  | .vec .i16x8_shl => "i16x8.shl"
  | .vec .i16x8_shr_s => "i16x8.shr_s"
  | .vec .i16x8_shr_u => "i16x8.shr_u"
  | .vec .i16x8_add => "i16x8.add"
  | .vec .i16x8_add_sat_s => "i16x8.add_sat_s"
  | .vec .i16x8_add_sat_u => "i16x8.add_sat_u"
  | .vec .i16x8_sub => "i16x8.sub"
  | .vec .i16x8_sub_sat_s => "i16x8.sub_sat_s"
  | .vec .i16x8_sub_sat_u => "i16x8.sub_sat_u"
  | .vec .f64x2_nearest => "f64x2.nearest"
  | .vec .i16x8_mul => "i16x8.mul"
  | .vec .i16x8_min_s => "i16x8.min_s"
  | .vec .i16x8_min_u => "i16x8.min_u"
  | .vec .i16x8_max_s => "i16x8.max_s"
  | .vec .i16x8_max_u => "i16x8.max_u"
  | .vec .i16x8_avgr_u => "i16x8.avgr_u"
  | .vec .i16x8_extmul_low_i8x16_s => "i16x8.extmul_low_i8x16_s"
  | .vec .i16x8_extmul_high_i8x16_s => "i16x8.extmul_high_i8x16_s"
  | .vec .i16x8_extmul_low_i8x16_u => "i16x8.extmul_low_i8x16_u"
  | .vec .i16x8_extmul_high_i8x16_u => "i16x8.extmul_high_i8x16_u"
  | .vec .i32x4_abs => "i32x4.abs"
  | .vec .i32x4_neg => "i32x4.neg"
  | .vec .i32x4_all_true => "i32x4.all_true"
  | .vec .i32x4_bitmask => "i32x4.bitmask"
  | .vec .i32x4_extend_low_i16x8_s => "i32x4.extend_low_i16x8_s"
  | .vec .i32x4_extend_high_i16x8_s => "i32x4.extend_high_i16x8_s"
  | .vec .i32x4_extend_low_i16x8_u => "i32x4.extend_low_i16x8_u"
  | .vec .i32x4_extend_high_i16x8_u => "i32x4.extend_high_i16x8_u"
  | .vec .i32x4_shl => "i32x4.shl"
  | .vec .i32x4_shr_s => "i32x4.shr_s"
  | .vec .i32x4_shr_u => "i32x4.shr_u"
  | .vec .i32x4_add => "i32x4.add"
  | .vec .i32x4_sub => "i32x4.sub"
  | .vec .i32x4_mul => "i32x4.mul"
  | .vec .i32x4_min_s => "i32x4.min_s"
  | .vec .i32x4_min_u => "i32x4.min_u"
  | .vec .i32x4_max_s => "i32x4.max_s"
  | .vec .i32x4_max_u => "i32x4.max_u"
  | .vec .i32x4_dot_i16x8_s => "i32x4.dot_i16x8_s"
  | .vec .i32x4_extmul_low_i16x8_s => "i32x4.extmul_low_i16x8_s"
  | .vec .i32x4_extmul_high_i16x8_s => "i32x4.extmul_high_i16x8_s"
  | .vec .i32x4_extmul_low_i16x8_u => "i32x4.extmul_low_i16x8_u"
  | .vec .i32x4_extmul_high_i16x8_u => "i32x4.extmul_high_i16x8_u"
  | .vec .i64x2_abs => "i64x2.abs"
  | .vec .i64x2_neg => "i64x2.neg"
  | .vec .i64x2_all_true => "i64x2.all_true"
  | .vec .i64x2_bitmask => "i64x2.bitmask"
  | .vec .i64x2_extend_low_i32x4_s => "i64x2.extend_low_i32x4_s"
  | .vec .i64x2_extend_high_i32x4_s => "i64x2.extend_high_i32x4_s"
  | .vec .i64x2_extend_low_i32x4_u => "i64x2.extend_low_i32x4_u"
  | .vec .i64x2_extend_high_i32x4_u => "i64x2.extend_high_i32x4_u"
  | .vec .i64x2_shl => "i64x2.shl"
  | .vec .i64x2_shr_s => "i64x2.shr_s"
  | .vec .i64x2_shr_u => "i64x2.shr_u"
  | .vec .i64x2_add => "i64x2.add"
  | .vec .i64x2_sub => "i64x2.sub"
  | .vec .i64x2_mul => "i64x2.mul"
  | .vec .i64x2_eq => "i64x2.eq"
  | .vec .i64x2_ne => "i64x2.ne"
  | .vec .i64x2_lt_s => "i64x2.lt_s"
  | .vec .i64x2_gt_s => "i64x2.gt_s"
  | .vec .i64x2_le_s => "i64x2.le_s"
  | .vec .i64x2_ge_s => "i64x2.ge_s"
  | .vec .i64x2_extmul_low_i32x4_s => "i64x2.extmul_low_i32x4_s"
  | .vec .i64x2_extmul_high_i32x4_s => "i64x2.extmul_high_i32x4_s"
  | .vec .i64x2_extmul_low_i32x4_u => "i64x2.extmul_low_i32x4_u"
  | .vec .i64x2_extmul_high_i32x4_u => "i64x2.extmul_high_i32x4_u"
  | .vec .f32x4_abs => "f32x4.abs"
  | .vec .f32x4_neg => "f32x4.neg"
  | .vec .f32x4_sqrt => "f32x4.sqrt"
  | .vec .f32x4_add => "f32x4.add"
  | .vec .f32x4_sub => "f32x4.sub"
  | .vec .f32x4_mul => "f32x4.mul"
  | .vec .f32x4_div => "f32x4.div"
  | .vec .f32x4_min => "f32x4.min"
  | .vec .f32x4_max => "f32x4.max"
  | .vec .f32x4_pmin => "f32x4.pmin"
  | .vec .f32x4_pmax => "f32x4.pmax"
  | .vec .f64x2_abs => "f64x2.abs"
  | .vec .f64x2_neg => "f64x2.neg"
  | .vec .f64x2_sqrt => "f64x2.sqrt"
  | .vec .f64x2_add => "f64x2.add"
  | .vec .f64x2_sub => "f64x2.sub"
  | .vec .f64x2_mul => "f64x2.mul"
  | .vec .f64x2_div => "f64x2.div"
  | .vec .f64x2_min => "f64x2.min"
  | .vec .f64x2_max => "f64x2.max"
  | .vec .f64x2_pmin => "f64x2.pmin"
  | .vec .f64x2_pmax => "f64x2.pmax"
  | .vec .i32x4_trunc_sat_f32x4_s => "i32x4.trunc_sat_f32x4_s"
  | .vec .i32x4_trunc_sat_f32x4_u => "i32x4.trunc_sat_f32x4_u"
  | .vec .f32x4_convert_i32x4_s => "f32x4.convert_i32x4_s"
  | .vec .f32x4_convert_i32x4_u => "f32x4.convert_i32x4_u"
  | .vec .i32x4_trunc_sat_f64x2_s_zero => "i32x4.trunc_sat_f64x2_s_zero"
  | .vec .i32x4_trunc_sat_f64x2_u_zero => "i32x4.trunc_sat_f64x2_u_zero"
  | .vec .f64x2_convert_low_i32x4_s => "f64x2.convert_low_i32x4_s"
  | .vec .f64x2_convert_low_i32x4_u => "f64x2.convert_low_i32x4_u"

/-! ## `repr` of the Python objects involved -/

/-- The least number with more than 4300 digits, the default of `sys.set_int_max_str_digits`. -/
@[irreducible] def Py.digitLimit : Nat := 10 ^ 4300

/-- `repr(n)` of an `int`: Python refuses to convert numbers of more than 4300 digits (`ValueError`). -/
def Py.reprInt (n : Int) : Except Err Str :=
  if n.natAbs < Py.digitLimit then .ok (if n < 0 then '-' :: Nat.toDigits 10 n.natAbs else Nat.toDigits 10 n.natAbs)
  else .error .value

/-- `s.join(l)` -/
def Py.joinWith (s : Str) : List Str → Str
  | [] => []
  | [w] => w
  | w :: v :: ws => w ++ s ++ joinWith s (v :: ws)

/-- `repr(l)` of a `list`, given the `repr` of its elements -/
def Py.reprList (l : List Str) : Str := '[' :: Py.joinWith [',', ' '] l ++ [']']

/-- a digit of `\x..` -/
def Py.hexDigit (n : Nat) : Char := Nat.digitChar n

/-- one byte in `repr` of a `bytearray` -/
def Py.reprByte (b : UInt8) : Str :=
  if b = 0x27 then ['\\', '\''] else if b = 0x5c then ['\\', '\\']
  else if b = 0x09 then ['\\', 't'] else if b = 0x0a then ['\\', 'n'] else if b = 0x0d then ['\\', 'r']
  else if b < 0x20 ∨ 0x7f ≤ b then ['\\', 'x', Py.hexDigit (b.toNat / 16), Py.hexDigit (b.toNat % 16)]
  else [Char.ofNat b.toNat]

/-- `repr(b)` of a `bytearray`: the quotes are double if there are single but no double ones inside. -/
def Py.reprBytearray (b : Bytes) : Str :=
  let q := if b.contains 0x27 && !b.contains 0x22 then '"' else '\''
  "bytearray(b".toList ++ q :: b.flatMap Py.reprByte ++ [q, ')']

/-- `ValType.__repr__`, core.py:25-34. -/
def ValType.repr : ValType → Str
  | .i32 => "i32".toList | .i64 => "i64".toList | .f32 => "f32".toList | .f64 => "f64".toList
  | .v128 => "v128".toList | .funcref => "ref.func".toList | .externref => "ref.extern".toList

/-- `Bype.__repr__`, core.py:318-323. -/
def Bype.repr : Bype → Except Err Str
  | .empty => .ok "empty".toList
  | .val t => .ok t.repr
  | .idx i => Py.reprInt i

/-! ## Instructions -/

/-- The kinds of immediates, core.py:338-343. -/
inductive Imm where
  | int (n : Int) | ints (l : List Nat) | bytes (b : Bytes) | type (bt : Bype)

/-- `repr` of an immediate -/
def Imm.repr : Imm → Except Err Str
  | .int n => Py.reprInt n
  | .ints l => do return Py.reprList (← l.mapM fun n : Nat => Py.reprInt n)
  | .bytes b => .ok (Py.reprBytearray b)
  | .type bt => bt.repr

/-- The opcode of an instruction (`instr.opcode`, core.py:341). -/
def Inst.opc : Inst → Opc
  | .unreachable => .unreachable | .nop => .nop | .block _ _ => .block | .loop _ _ => .loop | .ifThen _ _ _ => .if_then
  | .elseFi => .else_fi | .endFi => .end_fi | .br _ => .br | .brIf _ => .br_if | .brTable _ _ => .br_table
  | .ret => .return_call | .call _ => .call | .callIndirect _ _ => .call_indirect | .drop => .drop | .select => .select
  | .selectType _ => .select_type | .localGet _ => .local_get | .localSet _ => .local_set | .localTee _ => .local_tee
  | .globalGet _ => .global_get | .globalSet _ => .global_set | .tableGet _ => .table_get | .tableSet _ => .table_set
  | .load op _ _ => .load op | .store op _ _ => .store op | .loadLane w _ _ _ => .load_lane w
  | .storeLane w _ _ _ => .store_lane w | .memorySize _ => .memory_size | .memoryGrow _ => .memory_grow
  | .i32Const _ => .i32_const | .i64Const _ => .i64_const | .f32Const _ => .f32_const | .f64Const _ => .f64_const
  | .v128Const _ => .v128_const | .refNull _ => .ref_null | .refIsNull => .ref_is_null | .refFunc _ => .ref_func
  | .memoryInit _ => .memory_init | .dataDrop _ => .data_drop | .memoryCopy => .memory_copy | .memoryFill => .memory_fill
  | .tableInit _ _ => .table_init | .elemDrop _ => .elem_drop | .tableCopy _ _ => .table_copy | .tableGrow _ => .table_grow
  | .tableSize _ => .table_size | .tableFill _ => .table_fill
  | .num (.int op) => .int op | .num (.flt op) => .flt op | .num (.vec op) => .vec op
  | .num (.shuffle _) => .i8x16_shuffle | .num (.lane op _) => .lane op

/-- The immediates that are listed, core.py:350-355: of a block only its type, of other instructions all of
`instr.args` (core.py:402-707). -/
def Inst.imms : Inst → List Imm
  | .block bt _ => [.type bt] | .loop bt _ => [.type bt] | .ifThen bt _ _ => [.type bt]
  | .br l => [.int l] | .brIf l => [.int l] | .brTable ls d => [.ints ls, .int d]
  | .call f => [.int f] | .callIndirect t tab => [.int t, .int tab] | .selectType ts => [.ints ts]
  | .localGet i => [.int i] | .localSet i => [.int i] | .localTee i => [.int i]
  | .globalGet i => [.int i] | .globalSet i => [.int i] | .tableGet i => [.int i] | .tableSet i => [.int i]
  | .load _ a o => [.int a, .int o] | .store _ a o => [.int a, .int o]
  | .loadLane _ a o l => [.int a, .int o, .int l] | .storeLane _ a o l => [.int a, .int o, .int l]
  | .memorySize b => [.int b] | .memoryGrow b => [.int b]
  | .i32Const n => [.int n] | .i64Const n => [.int n] | .f32Const n => [.int n] | .f64Const n => [.int n]
  | .v128Const b => [.bytes b] | .refNull b => [.int b] | .refFunc f => [.int f]
  | .memoryInit i => [.int i] | .dataDrop i => [.int i]
  | .tableInit e t => [.int e, .int t] | .elemDrop e => [.int e] | .tableCopy t s => [.int t, .int s]
  | .tableGrow t => [.int t] | .tableSize t => [.int t] | .tableFill t => [.int t]
  | .num (.shuffle l) => l.map fun n : Nat => .int n
  | .num (.lane _ l) => [.int l]
  | _ => []

/-- `Inst.into_single`, core.py:348-355 (and `Inst.__repr__`, 345-346). -/
def Inst.single (i : Inst) : Except Err Str := do
  let l ← i.imms.mapM Imm.repr
  return Py.joinWith [' '] (i.opc.name.toList :: l)

/-! ## Printing -/

/-- Something that prints lines and may raise; what has been printed before stays.  A line is one call of `println`
(log.py:11-13) without the time stamp and `pywasm:`. -/
def Log (α : Type) : Type := List Str × Except Err α
/-- run one thing after the other -/
def Log.bind {α β} (x : Log α) (f : α → Log β) : Log β :=
  match x with
  | (l, .ok a) => (l ++ (f a).1, (f a).2)
  | (l, .error e) => (l, .error e)
instance : Monad Log where
  pure a := ([], .ok a)
  bind := Log.bind

/-- `debugln`, log.py:6-8: a line is printed if the level is positive. -/
def debugln (lvl : Int) (s : Str) : Log Unit := (if 0 < lvl then [s] else [], .ok ())
/-- `debugln` given an object: its `str` is made by `print`, hence only if the level is positive.  If that raises, Python
has already printed the beginning of the line; this is left out. -/
def debugObj (lvl : Int) (s : Except Err Str) : Log Unit :=
  if 0 < lvl then match s with
    | .ok s => ([s], .ok ())
    | .error e => ([], .error e)
  else ([], .ok ())

/-- core.py:358-359: the line of one instruction.  The text is made whatever the level is. -/
def Inst.disasm1 (lvl : Int) (indent : Nat) (i : Inst) : Log Unit :=
  match i.single with
  | .ok s => debugln lvl (List.replicate indent ' ' ++ s)
  | .error e => ([], .error e)

mutual
/-- `Inst.into_disasm`, core.py:357-362: of an `if` only the first branch is listed.  The recursion is not deeper than that
of the decoder that has read the instruction before. -/
def Inst.disasm (lvl : Int) (indent : Nat) : Inst → Log Unit
  | .block bt body => Log.bind (Inst.disasm1 lvl indent (.block bt body)) fun _ => Expr.disasm lvl (indent + 4) body
  | .loop bt body => Log.bind (Inst.disasm1 lvl indent (.loop bt body)) fun _ => Expr.disasm lvl (indent + 4) body
  | .ifThen bt thn els =>
    Log.bind (Inst.disasm1 lvl indent (.ifThen bt thn els)) fun _ => Expr.disasm lvl (indent + 4) thn
  | i => Inst.disasm1 lvl indent i
/-- `Expr.into_disasm`, core.py:721-723. -/
def Expr.disasm (lvl : Int) (indent : Nat) : List Inst → Log Unit
  | [] => ([], .ok ())
  | i :: is => Log.bind (Inst.disasm lvl indent i) fun _ => Expr.disasm lvl indent is
end

end Pywasm
