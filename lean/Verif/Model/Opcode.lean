import Verif.Model.Inst

/-!
# Model of /repo/pywasm/opcode.py

One constructor for every opcode; `Opc.num` is the number the file gives it and `Opc.all` the keys of the dictionary
`name` (opcode.py:441-878) in the order of the file.
-/

namespace Pywasm

/-- The names defined in /repo/pywasm/opcode.py:3-439 (`end` is called `end_fi` here). -/
inductive Opc where
  | unreachable | nop | block | loop | if_then | else_fi | end_fi | br | br_if | br_table | return_call | call
  | call_indirect | drop | select | select_type | local_get | local_set | local_tee | global_get | global_set
  | table_get | table_set | memory_size | memory_grow | i32_const | i64_const | f32_const | f64_const | ref_null
  | ref_is_null | ref_func | memory_init | data_drop | memory_copy | memory_fill | table_init | elem_drop
  | table_copy | table_grow | table_size | table_fill | v128_const | i8x16_shuffle
  | load (op : LoadOp) | store (op : StoreOp) | load_lane (w : LaneW) | store_lane (w : LaneW)
  | int (op : IOp) | flt (op : FOp) | vec (op : VOp) | lane (op : LOp)
  deriving DecidableEq, Repr

/-- The number of an opcode, /repo/pywasm/opcode.py:3-439. -/
def Opc.num : Opc → Nat
  | .unreachable => 0x00
  | .nop => 0x01
  | .block => 0x02
  | .loop => 0x03
  | .if_then => 0x04
  | .else_fi => 0x05
  | .end_fi => 0x0b
  | .br => 0x0c
  | .br_if => 0x0d
  | .br_table => 0x0e
  | .return_call => 0x0f
  | .call => 0x10
  | .call_indirect => 0x11
  | .drop => 0x1a
  | .select => 0x1b
  | .select_type => 0x1c
  | .local_get => 0x20
  | .local_set => 0x21
  | .local_tee => 0x22
  | .global_get => 0x23
  | .global_set => 0x24
  | .table_get => 0x25
  | .table_set => 0x26
  | .load .i32_load => 0x28
  | .load .i64_load => 0x29
  | .load .f32_load => 0x2a
  | .load .f64_load => 0x2b
  | .load .i32_load8_s => 0x2c
  | .load .i32_load8_u => 0x2d
  | .load .i32_load16_s => 0x2e
  | .load .i32_load16_u => 0x2f
  | .load .i64_load8_s => 0x30
  | .load .i64_load8_u => 0x31
  | .load .i64_load16_s => 0x32
  | .load .i64_load16_u => 0x33
  | .load .i64_load32_s => 0x34
  | .load .i64_load32_u => 0x35
  | .store .i32_store => 0x36
  | .store .i64_store => 0x37
  | .store .f32_store => 0x38
  | .store .f64_store => 0x39
  | .store .i32_store8 => 0x3a
  | .store .i32_store16 => 0x3b
  | .store .i64_store8 => 0x3c
  | .store .i64_store16 => 0x3d
  | .store .i64_store32 => 0x3e
  | .memory_size => 0x3f
  | .memory_grow => 0x40
  | .i32_const => 0x41
  | .i64_const => 0x42
  | .f32_const => 0x43
  | .f64_const => 0x44
  | .int .i32_eqz => 0x45
  | .int .i32_eq => 0x46
  | .int .i32_ne => 0x47
  | .int .i32_lt_s => 0x48
  | .int .i32_lt_u => 0x49
  | .int .i32_gt_s => 0x4a
  | .int .i32_gt_u => 0x4b
  | .int .i32_le_s => 0x4c
  | .int .i32_le_u => 0x4d
  | .int .i32_ge_s => 0x4e
  | .int .i32_ge_u => 0x4f
  | .int .i64_eqz => 0x50
  | .int .i64_eq => 0x51
  | .int .i64_ne => 0x52
  | .int .i64_lt_s => 0x53
  | .int .i64_lt_u => 0x54
  | .int .i64_gt_s => 0x55
  | .int .i64_gt_u => 0x56
  | .int .i64_le_s => 0x57
  | .int .i64_le_u => 0x58
  | .int .i64_ge_s => 0x59
  | .int .i64_ge_u => 0x5a
  | .flt .f32_eq => 0x5b
  | .flt .f32_ne => 0x5c
  | .flt .f32_lt => 0x5d
  | .flt .f32_gt => 0x5e
  | .flt .f32_le => 0x5f
  | .flt .f32_ge => 0x60
  | .flt .f64_eq => 0x61
  | .flt .f64_ne => 0x62
  | .flt .f64_lt => 0x63
  | .flt .f64_gt => 0x64
  | .flt .f64_le => 0x65
  | .flt .f64_ge => 0x66
  | .int .i32_clz => 0x67
  | .int .i32_ctz => 0x68
  | .int .i32_popcnt => 0x69
  | .int .i32_add => 0x6a
  | .int .i32_sub => 0x6b
  | .int .i32_mul => 0x6c
  | .int .i32_div_s => 0x6d
  | .int .i32_div_u => 0x6e
  | .int .i32_rem_s => 0x6f
  | .int .i32_rem_u => 0x70
  | .int .i32_and => 0x71
  | .int .i32_or => 0x72
  | .int .i32_xor => 0x73
  | .int .i32_shl => 0x74
  | .int .i32_shr_s => 0x75
  | .int .i32_shr_u => 0x76
  | .int .i32_rotl => 0x77
  | .int .i32_rotr => 0x78
  | .int .i64_clz => 0x79
  | .int .i64_ctz => 0x7a
  | .int .i64_popcnt => 0x7b
  | .int .i64_add => 0x7c
  | .int .i64_sub => 0x7d
  | .int .i64_mul => 0x7e
  | .int .i64_div_s => 0x7f
  | .int .i64_div_u => 0x80
  | .int .i64_rem_s => 0x81
  | .int .i64_rem_u => 0x82
  | .int .i64_and => 0x83
  | .int .i64_or => 0x84
  | .int .i64_xor => 0x85
  | .int .i64_shl => 0x86
  | .int .i64_shr_s => 0x87
  | .int .i64_shr_u => 0x88
  | .int .i64_rotl => 0x89
  | .int .i64_rotr => 0x8a
  | .flt .f32_abs => 0x8b
  | .flt .f32_neg => 0x8c
  | .flt .f32_ceil => 0x8d
  | .flt .f32_floor => 0x8e
  | .flt .f32_trunc => 0x8f
  | .flt .f32_nearest => 0x90
  | .flt .f32_sqrt => 0x91
  | .flt .f32_add => 0x92
  | .flt .f32_sub => 0x93
  | .flt .f32_mul => 0x94
  | .flt .f32_div => 0x95
  | .flt .f32_min => 0x96
  | .flt .f32_max => 0x97
  | .flt .f32_copysign => 0x98
  | .flt .f64_abs => 0x99
  | .flt .f64_neg => 0x9a
  | .flt .f64_ceil => 0x9b
  | .flt .f64_floor => 0x9c
  | .flt .f64_trunc => 0x9d
  | .flt .f64_nearest => 0x9e
  | .flt .f64_sqrt => 0x9f
  | .flt .f64_add => 0xa0
  | .flt .f64_sub => 0xa1
  | .flt .f64_mul => 0xa2
  | .flt .f64_div => 0xa3
  | .flt .f64_min => 0xa4
  | .flt .f64_max => 0xa5
  | .flt .f64_copysign => 0xa6
  | .int .i32_wrap_i64 => 0xa7
  | .flt .i32_trunc_f32_s => 0xa8
  | .flt .i32_trunc_f32_u => 0xa9
  | .flt .i32_trunc_f64_s => 0xaa
  | .flt .i32_trunc_f64_u => 0xab
  | .int .i64_extend_i32_s => 0xac
  | .int .i64_extend_i32_u => 0xad
  | .flt .i64_trunc_f32_s => 0xae
  | .flt .i64_trunc_f32_u => 0xaf
  | .flt .i64_trunc_f64_s => 0xb0
  | .flt .i64_trunc_f64_u => 0xb1
  | .flt .f32_convert_i32_s => 0xb2
  | .flt .f32_convert_i32_u => 0xb3
  | .flt .f32_convert_i64_s => 0xb4
  | .flt .f32_convert_i64_u => 0xb5
  | .flt .f32_demote_f64 => 0xb6
  | .flt .f64_convert_i32_s => 0xb7
  | .flt .f64_convert_i32_u => 0xb8
  | .flt .f64_convert_i64_s => 0xb9
  | .flt .f64_convert_i64_u => 0xba
  | .flt .f64_promote_f32 => 0xbb
  | .flt .i32_reinterpret_f32 => 0xbc
  | .flt .i64_reinterpret_f64 => 0xbd
  | .flt .f32_reinterpret_i32 => 0xbe
  | .flt .f64_reinterpret_i64 => 0xbf
  | .int .i32_extend8_s => 0xc0
  | .int .i32_extend16_s => 0xc1
  | .int .i64_extend8_s => 0xc2
  | .int .i64_extend16_s => 0xc3
  | .int .i64_extend32_s => 0xc4
  | .ref_null => 0xd0
  | .ref_is_null => 0xd1
  | .ref_func => 0xd2
  | .flt .i32_trunc_sat_f32_s => 0xfc00
  | .flt .i32_trunc_sat_f32_u => 0xfc01
  | .flt .i32_trunc_sat_f64_s => 0xfc02
  | .flt .i32_trunc_sat_f64_u => 0xfc03
  | .flt .i64_trunc_sat_f32_s => 0xfc04
  | .flt .i64_trunc_sat_f32_u => 0xfc05
  | .flt .i64_trunc_sat_f64_s => 0xfc06
  | .flt .i64_trunc_sat_f64_u => 0xfc07
  | .memory_init => 0xfc08
  | .data_drop => 0xfc09
  | .memory_copy => 0xfc0a
  | .memory_fill => 0xfc0b
  | .table_init => 0xfc0c
  | .elem_drop => 0xfc0d
  | .table_copy => 0xfc0e
  | .table_grow => 0xfc0f
  | .table_size => 0xfc10
  | .table_fill => 0xfc11
  | .load .v128_load => 0xfd00
  | .load .v128_load8x8_s => 0xfd01
  | .load .v128_load8x8_u => 0xfd02
  | .load .v128_load16x4_s => 0xfd03
  | .load .v128_load16x4_u => 0xfd04
  | .load .v128_load32x2_s => 0xfd05
  | .load .v128_load32x2_u => 0xfd06
  | .load .v128_load8_splat => 0xfd07
  | .load .v128_load16_splat => 0xfd08
  | .load .v128_load32_splat => 0xfd09
  | .load .v128_load64_splat => 0xfd0a
  | .store .v128_store => 0xfd0b
  | .v128_const => 0xfd0c
  | .i8x16_shuffle => 0xfd0d
  | .vec .i8x16_swizzle => 0xfd0e
  | .vec .i8x16_splat => 0xfd0f
  | .vec .i16x8_splat => 0xfd10
  | .vec .i32x4_splat => 0xfd11
  | .vec .i64x2_splat => 0xfd12
  | .vec .f32x4_splat => 0xfd13
  | .vec .f64x2_splat => 0xfd14
  | .lane .i8x16_extract_lane_s => 0xfd15
  | .lane .i8x16_extract_lane_u => 0xfd16
  | .lane .i8x16_replace_lane => 0xfd17
  | .lane .i16x8_extract_lane_s => 0xfd18
  | .lane .i16x8_extract_lane_u => 0xfd19
  | .lane .i16x8_replace_lane => 0xfd1a
  | .lane .i32x4_extract_lane => 0xfd1b
  | .lane .i32x4_replace_lane => 0xfd1c
  | .lane .i64x2_extract_lane => 0xfd1d
  | .lane .i64x2_replace_lane => 0xfd1e
  | .lane .f32x4_extract_lane => 0xfd1f
  | .lane .f32x4_replace_lane => 0xfd20
  | .lane .f64x2_extract_lane => 0xfd21
  | .lane .f64x2_replace_lane => 0xfd22
  | .vec .i8x16_eq => 0xfd23
  | .vec .i8x16_ne => 0xfd24
  | .vec .i8x16_lt_s => 0xfd25
  | .vec .i8x16_lt_u => 0xfd26
  | .vec .i8x16_gt_s => 0xfd27
  | .vec .i8x16_gt_u => 0xfd28
  | .vec .i8x16_le_s => 0xfd29
  | .vec .i8x16_le_u => 0xfd2a
  | .vec .i8x16_ge_s => 0xfd2b
  | .vec .i8x16_ge_u => 0xfd2c
  | .vec .i16x8_eq => 0xfd2d
  | .vec .i16x8_ne => 0xfd2e
  | .vec .i16x8_lt_s => 0xfd2f
  | .vec .i16x8_lt_u => 0xfd30
  | .vec .i16x8_gt_s => 0xfd31
  | .vec .i16x8_gt_u => 0xfd32
  | .vec .i16x8_le_s => 0xfd33
  | .vec .i16x8_le_u => 0xfd34
  | .vec .i16x8_ge_s => 0xfd35
  | .vec .i16x8_ge_u => 0xfd36
  | .vec .i32x4_eq => 0xfd37
  | .vec .i32x4_ne => 0xfd38
  | .vec .i32x4_lt_s => 0xfd39
  | .vec .i32x4_lt_u => 0xfd3a
  | .vec .i32x4_gt_s => 0xfd3b
  | .vec .i32x4_gt_u => 0xfd3c
  | .vec .i32x4_le_s => 0xfd3d
  | .vec .i32x4_le_u => 0xfd3e
  | .vec .i32x4_ge_s => 0xfd3f
  | .vec .i32x4_ge_u => 0xfd40
  | .vec .f32x4_eq => 0xfd41
  | .vec .f32x4_ne => 0xfd42
  | .vec .f32x4_lt => 0xfd43
  | .vec .f32x4_gt => 0xfd44
  | .vec .f32x4_le => 0xfd45
  | .vec .f32x4_ge => 0xfd46
  | .vec .f64x2_eq => 0xfd47
  | .vec .f64x2_ne => 0xfd48
  | .vec .f64x2_lt => 0xfd49
  | .vec .f64x2_gt => 0xfd4a
  | .vec .f64x2_le => 0xfd4b
  | .vec .f64x2_ge => 0xfd4c
  | .vec .v128_not => 0xfd4d
  | .vec .v128_and => 0xfd4e
  | .vec .v128_andnot => 0xfd4f
  | .vec .v128_or => 0xfd50
  | .vec .v128_xor => 0xfd51
  | .vec .v128_bitselect => 0xfd52
  | .vec .v128_any_true => 0xfd53
  | .load_lane .w8 => 0xfd54
  | .load_lane .w16 => 0xfd55
  | .load_lane .w32 => 0xfd56
  | .load_lane .w64 => 0xfd57
  | .store_lane .w8 => 0xfd58
  | .store_lane .w16 => 0xfd59
  | .store_lane .w32 => 0xfd5a
  | .store_lane .w64 => 0xfd5b
  | .load .v128_load32_zero => 0xfd5c
  | .load .v128_load64_zero => 0xfd5d
  | .vec .f32x4_demote_f64x2_zero => 0xfd5e
  | .vec .f64x2_promote_low_f32x4 => 0xfd5f
  | .vec .i8x16_abs => 0xfd60
  | .vec .i8x16_neg => 0xfd61
  | .vec .i8x16_popcnt => 0xfd62
  | .vec .i8x16_all_true => 0xfd63
  | .vec .i8x16_bitmask => 0xfd64
  | .vec .i8x16_narrow_i16x8_s => 0xfd65
  | .vec .i8x16_narrow_i16x8_u => 0xfd66
  | .vec .f32x4_ceil => 0xfd67
  | .vec .f32x4_floor => 0xfd68
  | .vec .f32x4_trunc => 0xfd69
  | .vec .f32x4_nearest => 0xfd6a
  | .vec .i8x16_shl => 0xfd6b
  | .vec .i8x16_shr_s => 0xfd6c
  | .vec .i8x16_shr_u => 0xfd6d
  | .vec .i8x16_add => 0xfd6e
  | .vec .i8x16_add_sat_s => 0xfd6f
  | .vec .i8x16_add_sat_u => 0xfd70
  | .vec .i8x16_sub => 0xfd71
  | .vec .i8x16_sub_sat_s => 0xfd72
  | .vec .i8x16_sub_sat_u => 0xfd73
  | .vec .f64x2_ceil => 0xfd74
  | .vec .f64x2_floor => 0xfd75
  | .vec .i8x16_min_s => 0xfd76
  | .vec .i8x16_min_u => 0xfd77
  | .vec .i8x16_max_s => 0xfd78
  | .vec .i8x16_max_u => 0xfd79
  | .vec .f64x2_trunc => 0xfd7a
  | .vec .i8x16_avgr_u => 0xfd7b
  | .vec .i16x8_extadd_pairwise_i8x16_s => 0xfd7c
  | .vec .i16x8_extadd_pairwise_i8x16_u => 0xfd7d
  | .vec .i32x4_extadd_pairwise_i16x8_s => 0xfd7e
  | .vec .i32x4_extadd_pairwise_i16x8_u => 0xfd7f
  | .vec .i16x8_abs => 0xfd8001
  | .vec .i16x8_neg => 0xfd8101
  | .vec .i16x8_q15mulr_sat_s => 0xfd8201
  | .vec .i16x8_all_true => 0xfd8301
  | .vec .i16x8_bitmask => 0xfd8401
  | .vec .i16x8_narrow_i32x4_s => 0xfd8501
  | .vec .i16x8_narrow_i32x4_u => 0xfd8601
  | .vec .i16x8_extend_low_i8x16_s => 0xfd8701
  | .vec .i16x8_extend_high_i8x16_s => 0xfd8801
  | .vec .i16x8_extend_low_i8x16_u => 0xfd8901
  | .vec .i16x8_extend_high_i8x16_u => 0xfd8a01
  | .vec .i16x8_shl => 0xfd8b01
  | .vec .i16x8_shr_s => 0xfd8c01
  | .vec .i16x8_shr_u => 0xfd8d01
  | .vec .i16x8_add => 0xfd8e01
  | .vec .i16x8_add_sat_s => 0xfd8f01
  | .vec .i16x8_add_sat_u => 0xfd9001
  | .vec .i16x8_sub => 0xfd9101
  | .vec .i16x8_sub_sat_s => 0xfd9201
  | .vec .i16x8_sub_sat_u => 0xfd9301
  | .vec .f64x2_nearest => 0xfd9401
  | .vec .i16x8_mul => 0xfd9501
  | .vec .i16x8_min_s => 0xfd9601
  | .vec .i16x8_min_u => 0xfd9701
  | .vec .i16x8_max_s => 0xfd9801
  | .vec .i16x8_max_u => 0xfd9901
  | .vec .i16x8_avgr_u => 0xfd9b01
  | .vec .i16x8_extmul_low_i8x16_s => 0xfd9c01
  | .vec .i16x8_extmul_high_i8x16_s => 0xfd9d01
  | .vec .i16x8_extmul_low_i8x16_u => 0xfd9e01
  | .vec .i16x8_extmul_high_i8x16_u => 0xfd9f01
  | .vec .i32x4_abs => 0xfda001
  | .vec .i32x4_neg => 0xfda101
  | .vec .i32x4_all_true => 0xfda301
  | .vec .i32x4_bitmask => 0xfda401
  | .vec .i32x4_extend_low_i16x8_s => 0xfda701
  | .vec .i32x4_extend_high_i16x8_s => 0xfda801
  | .vec .i32x4_extend_low_i16x8_u => 0xfda901
  | .vec .i32x4_extend_high_i16x8_u => 0xfdaa01
  | .vec .i32x4_shl => 0xfdab01
  | .vec .i32x4_shr_s => 0xfdac01
  | .vec .i32x4_shr_u => 0xfdad01
  | .vec .i32x4_add => 0xfdae01
  | .vec .i32x4_sub => 0xfdb101
  | .vec .i32x4_mul => 0xfdb501
  | .vec .i32x4_min_s => 0xfdb601
  | .vec .i32x4_min_u => 0xfdb701
  | .vec .i32x4_max_s => 0xfdb801
  | .vec .i32x4_max_u => 0xfdb901
  | .vec .i32x4_dot_i16x8_s => 0xfdba01
  | .vec .i32x4_extmul_low_i16x8_s => 0xfdbc01
  | .vec .i32x4_extmul_high_i16x8_s => 0xfdbd01
  | .vec .i32x4_extmul_low_i16x8_u => 0xfdbe01
  | .vec .i32x4_extmul_high_i16x8_u => 0xfdbf01
  | .vec .i64x2_abs => 0xfdc001
  | .vec .i64x2_neg => 0xfdc101
  | .vec .i64x2_all_true => 0xfdc301
  | .vec .i64x2_bitmask => 0xfdc401
  | .vec .i64x2_extend_low_i32x4_s => 0xfdc701
  | .vec .i64x2_extend_high_i32x4_s => 0xfdc801
  | .vec .i64x2_extend_low_i32x4_u => 0xfdc901
  | .vec .i64x2_extend_high_i32x4_u => 0xfdca01
  | .vec .i64x2_shl => 0xfdcb01
  | .vec .i64x2_shr_s => 0xfdcc01
  | .vec .i64x2_shr_u => 0xfdcd01
  | .vec .i64x2_add => 0xfdce01
  | .vec .i64x2_sub => 0xfdd101
  | .vec .i64x2_mul => 0xfdd501
  | .vec .i64x2_eq => 0xfdd601
  | .vec .i64x2_ne => 0xfdd701
  | .vec .i64x2_lt_s => 0xfdd801
  | .vec .i64x2_gt_s => 0xfdd901
  | .vec .i64x2_le_s => 0xfdda01
  | .vec .i64x2_ge_s => 0xfddb01
  | .vec .i64x2_extmul_low_i32x4_s => 0xfddc01
  | .vec .i64x2_extmul_high_i32x4_s => 0xfddd01
  | .vec .i64x2_extmul_low_i32x4_u => 0xfdde01
  | .vec .i64x2_extmul_high_i32x4_u => 0xfddf01
  | .vec .f32x4_abs => 0xfde001
  | .vec .f32x4_neg => 0xfde101
  | .vec .f32x4_sqrt => 0xfde301
  | .vec .f32x4_add => 0xfde401
  | .vec .f32x4_sub => 0xfde501
  | .vec .f32x4_mul => 0xfde601
  | .vec .f32x4_div => 0xfde701
  | .vec .f32x4_min => 0xfde801
  | .vec .f32x4_max => 0xfde901
  | .vec .f32x4_pmin => 0xfdea01
  | .vec .f32x4_pmax => 0xfdeb01
  | .vec .f64x2_abs => 0xfdec01
  | .vec .f64x2_neg => 0xfded01
  | .vec .f64x2_sqrt => 0xfdef01
  | .vec .f64x2_add => 0xfdf001
  | .vec .f64x2_sub => 0xfdf101
  | .vec .f64x2_mul => 0xfdf201
  | .vec .f64x2_div => 0xfdf301
  | .vec .f64x2_min => 0xfdf401
  | .vec .f64x2_max => 0xfdf501
  | .vec .f64x2_pmin => 0xfdf601
  | .vec .f64x2_pmax => 0xfdf701
  | .vec .i32x4_trunc_sat_f32x4_s => 0xfdf801
  | .vec .i32x4_trunc_sat_f32x4_u => 0xfdf901
  | .vec .f32x4_convert_i32x4_s => 0xfdfa01
  | .vec .f32x4_convert_i32x4_u => 0xfdfb01
  | .vec .i32x4_trunc_sat_f64x2_s_zero => 0xfdfc01
  | .vec .i32x4_trunc_sat_f64x2_u_zero => 0xfdfd01
  | .vec .f64x2_convert_low_i32x4_s => 0xfdfe01
  | .vec .f64x2_convert_low_i32x4_u => 0xfdff01

/-- The keys of `name`, /repo/pywasm/opcode.py:441-878. -/
def Opc.all : List Opc := [
  .unreachable, .nop, .block, .loop, .if_then, .else_fi, .end_fi, .br, .br_if, .br_table, .return_call, .call,
  .call_indirect, .drop, .select, .select_type, .local_get, .local_set, .local_tee, .global_get, .global_set,
  .table_get, .table_set, .load .i32_load, .load .i64_load, .load .f32_load, .load .f64_load, .load .i32_load8_s,
  .load .i32_load8_u, .load .i32_load16_s, .load .i32_load16_u, .load .i64_load8_s, .load .i64_load8_u,
  .load .i64_load16_s, .load .i64_load16_u, .load .i64_load32_s, .load .i64_load32_u, .store .i32_store,
  .store .i64_store, .store .f32_store, .store .f64_store, .store .i32_store8, .store .i32_store16,
  .store .i64_store8, .store .i64_store16, .store .i64_store32, .memory_size, .memory_grow, .i32_const, .i64_const,
  .f32_const, .f64_const, .int .i32_eqz, .int .i32_eq, .int .i32_ne, .int .i32_lt_s, .int .i32_lt_u,
  .int .i32_gt_s, .int .i32_gt_u, .int .i32_le_s, .int .i32_le_u, .int .i32_ge_s, .int .i32_ge_u, .int .i64_eqz,
  .int .i64_eq, .int .i64_ne, .int .i64_lt_s, .int .i64_lt_u, .int .i64_gt_s, .int .i64_gt_u, .int .i64_le_s,
  .int .i64_le_u, .int .i64_ge_s, .int .i64_ge_u, .flt .f32_eq, .flt .f32_ne, .flt .f32_lt, .flt .f32_gt,
  .flt .f32_le, .flt .f32_ge, .flt .f64_eq, .flt .f64_ne, .flt .f64_lt, .flt .f64_gt, .flt .f64_le, .flt .f64_ge,
  .int .i32_clz, .int .i32_ctz, .int .i32_popcnt, .int .i32_add, .int .i32_sub, .int .i32_mul, .int .i32_div_s,
  .int .i32_div_u, .int .i32_rem_s, .int .i32_rem_u, .int .i32_and, .int .i32_or, .int .i32_xor, .int .i32_shl,
  .int .i32_shr_s, .int .i32_shr_u, .int .i32_rotl, .int .i32_rotr, .int .i64_clz, .int .i64_ctz, .int .i64_popcnt,
  .int .i64_add, .int .i64_sub, .int .i64_mul, .int .i64_div_s, .int .i64_div_u, .int .i64_rem_s, .int .i64_rem_u,
  .int .i64_and, .int .i64_or, .int .i64_xor, .int .i64_shl, .int .i64_shr_s, .int .i64_shr_u, .int .i64_rotl,
  .int .i64_rotr, .flt .f32_abs, .flt .f32_neg, .flt .f32_ceil, .flt .f32_floor, .flt .f32_trunc,
  .flt .f32_nearest, .flt .f32_sqrt, .flt .f32_add, .flt .f32_sub, .flt .f32_mul, .flt .f32_div, .flt .f32_min,
  .flt .f32_max, .flt .f32_copysign, .flt .f64_abs, .flt .f64_neg, .flt .f64_ceil, .flt .f64_floor,
  .flt .f64_trunc, .flt .f64_nearest, .flt .f64_sqrt, .flt .f64_add, .flt .f64_sub, .flt .f64_mul, .flt .f64_div,
  .flt .f64_min, .flt .f64_max, .flt .f64_copysign, .int .i32_wrap_i64, .flt .i32_trunc_f32_s,
  .flt .i32_trunc_f32_u, .flt .i32_trunc_f64_s, .flt .i32_trunc_f64_u, .int .i64_extend_i32_s,
  .int .i64_extend_i32_u, .flt .i64_trunc_f32_s, .flt .i64_trunc_f32_u, .flt .i64_trunc_f64_s,
  .flt .i64_trunc_f64_u, .flt .f32_convert_i32_s, .flt .f32_convert_i32_u, .flt .f32_convert_i64_s,
  .flt .f32_convert_i64_u, .flt .f32_demote_f64, .flt .f64_convert_i32_s, .flt .f64_convert_i32_u,
  .flt .f64_convert_i64_s, .flt .f64_convert_i64_u, .flt .f64_promote_f32, .flt .i32_reinterpret_f32,
  .flt .i64_reinterpret_f64, .flt .f32_reinterpret_i32, .flt .f64_reinterpret_i64, .int .i32_extend8_s,
  .int .i32_extend16_s, .int .i64_extend8_s, .int .i64_extend16_s, .int .i64_extend32_s, .ref_null, .ref_is_null,
  .ref_func, .flt .i32_trunc_sat_f32_s, .flt .i32_trunc_sat_f32_u, .flt .i32_trunc_sat_f64_s,
  .flt .i32_trunc_sat_f64_u, .flt .i64_trunc_sat_f32_s, .flt .i64_trunc_sat_f32_u, .flt .i64_trunc_sat_f64_s,
  .flt .i64_trunc_sat_f64_u, .memory_init, .data_drop, .memory_copy, .memory_fill, .table_init, .elem_drop,
  .table_copy, .table_grow, .table_size, .table_fill, .load .v128_load, .load .v128_load8x8_s,
  .load .v128_load8x8_u, .load .v128_load16x4_s, .load .v128_load16x4_u, .load .v128_load32x2_s,
  .load .v128_load32x2_u, .load .v128_load8_splat, .load .v128_load16_splat, .load .v128_load32_splat,
  .load .v128_load64_splat, .store .v128_store, .v128_const, .i8x16_shuffle, .vec .i8x16_swizzle,
  .vec .i8x16_splat, .vec .i16x8_splat, .vec .i32x4_splat, .vec .i64x2_splat, .vec .f32x4_splat, .vec .f64x2_splat,
  .lane .i8x16_extract_lane_s, .lane .i8x16_extract_lane_u, .lane .i8x16_replace_lane, .lane .i16x8_extract_lane_s,
  .lane .i16x8_extract_lane_u, .lane .i16x8_replace_lane, .lane .i32x4_extract_lane, .lane .i32x4_replace_lane,
  .lane .i64x2_extract_lane, .lane .i64x2_replace_lane, .lane .f32x4_extract_lane, .lane .f32x4_replace_lane,
  .lane .f64x2_extract_lane, .lane .f64x2_replace_lane, .vec .i8x16_eq, .vec .i8x16_ne, .vec .i8x16_lt_s,
  .vec .i8x16_lt_u, .vec .i8x16_gt_s, .vec .i8x16_gt_u, .vec .i8x16_le_s, .vec .i8x16_le_u, .vec .i8x16_ge_s,
  .vec .i8x16_ge_u, .vec .i16x8_eq, .vec .i16x8_ne, .vec .i16x8_lt_s, .vec .i16x8_lt_u, .vec .i16x8_gt_s,
  .vec .i16x8_gt_u, .vec .i16x8_le_s, .vec .i16x8_le_u, .vec .i16x8_ge_s, .vec .i16x8_ge_u, .vec .i32x4_eq,
  .vec .i32x4_ne, .vec .i32x4_lt_s, .vec .i32x4_lt_u, .vec .i32x4_gt_s, .vec .i32x4_gt_u, .vec .i32x4_le_s,
  .vec .i32x4_le_u, .vec .i32x4_ge_s, .vec .i32x4_ge_u, .vec .f32x4_eq, .vec .f32x4_ne, .vec .f32x4_lt,
  .vec .f32x4_gt, .vec .f32x4_le, .vec .f32x4_ge, .vec .f64x2_eq, .vec .f64x2_ne, .vec .f64x2_lt, .vec .f64x2_gt,
  .vec .f64x2_le, .vec .f64x2_ge, .vec .v128_not, .vec .v128_and, .vec .v128_andnot, .vec .v128_or, .vec .v128_xor,
  .vec .v128_bitselect, .vec .v128_any_true, .load_lane .w8, .load_lane .w16, .load_lane .w32, .load_lane .w64,
  .store_lane .w8, .store_lane .w16, .store_lane .w32, .store_lane .w64, .load .v128_load32_zero,
  .load .v128_load64_zero, .vec .f32x4_demote_f64x2_zero, .vec .f64x2_promote_low_f32x4, .vec .i8x16_abs,
  .vec .i8x16_neg, .vec .i8x16_popcnt, .vec .i8x16_all_true, .vec .i8x16_bitmask, .vec .i8x16_narrow_i16x8_s,
  .vec .i8x16_narrow_i16x8_u, .vec .f32x4_ceil, .vec .f32x4_floor, .vec .f32x4_trunc, .vec .f32x4_nearest,
  .vec .i8x16_shl, .vec .i8x16_shr_s, .vec .i8x16_shr_u, .vec .i8x16_add, .vec .i8x16_add_sat_s,
  .vec .i8x16_add_sat_u, .vec .i8x16_sub, .vec .i8x16_sub_sat_s, .vec .i8x16_sub_sat_u, .vec .f64x2_ceil,
  .vec .f64x2_floor, .vec .i8x16_min_s, .vec .i8x16_min_u, .vec .i8x16_max_s, .vec .i8x16_max_u, .vec .f64x2_trunc,
  .vec .i8x16_avgr_u, .vec .i16x8_extadd_pairwise_i8x16_s, .vec .i16x8_extadd_pairwise_i8x16_u,
  .vec .i32x4_extadd_pairwise_i16x8_s, .vec .i32x4_extadd_pairwise_i16x8_u, .vec .i16x8_abs, .vec .i16x8_neg,
  .vec .i16x8_q15mulr_sat_s, .vec .i16x8_all_true, .vec .i16x8_bitmask, .vec .i16x8_narrow_i32x4_s,
  .vec .i16x8_narrow_i32x4_u, .vec .i16x8_extend_low_i8x16_s, .vec .i16x8_extend_high_i8x16_s,
  .vec .i16x8_extend_low_i8x16_u, .vec .i16x8_extend_high_i8x16_u, .vec .i16x8_shl, .vec .i16x8_shr_s,
  .vec .i16x8_shr_u, .vec .i16x8_add, .vec .i16x8_add_sat_s, .vec .i16x8_add_sat_u, .vec .i16x8_sub,
  .vec .i16x8_sub_sat_s, .vec .i16x8_sub_sat_u, .vec .f64x2_nearest, .vec .i16x8_mul, .vec .i16x8_min_s,
  .vec .i16x8_min_u, .vec .i16x8_max_s, .vec .i16x8_max_u, .vec .i16x8_avgr_u, .vec .i16x8_extmul_low_i8x16_s,
  .vec .i16x8_extmul_high_i8x16_s, .vec .i16x8_extmul_low_i8x16_u, .vec .i16x8_extmul_high_i8x16_u,
  .vec .i32x4_abs, .vec .i32x4_neg, .vec .i32x4_all_true, .vec .i32x4_bitmask, .vec .i32x4_extend_low_i16x8_s,
  .vec .i32x4_extend_high_i16x8_s, .vec .i32x4_extend_low_i16x8_u, .vec .i32x4_extend_high_i16x8_u,
  .vec .i32x4_shl, .vec .i32x4_shr_s, .vec .i32x4_shr_u, .vec .i32x4_add, .vec .i32x4_sub, .vec .i32x4_mul,
  .vec .i32x4_min_s, .vec .i32x4_min_u, .vec .i32x4_max_s, .vec .i32x4_max_u, .vec .i32x4_dot_i16x8_s,
  .vec .i32x4_extmul_low_i16x8_s, .vec .i32x4_extmul_high_i16x8_s, .vec .i32x4_extmul_low_i16x8_u,
  .vec .i32x4_extmul_high_i16x8_u, .vec .i64x2_abs, .vec .i64x2_neg, .vec .i64x2_all_true, .vec .i64x2_bitmask,
  .vec .i64x2_extend_low_i32x4_s, .vec .i64x2_extend_high_i32x4_s, .vec .i64x2_extend_low_i32x4_u,
  .vec .i64x2_extend_high_i32x4_u, .vec .i64x2_shl, .vec .i64x2_shr_s, .vec .i64x2_shr_u, .vec .i64x2_add,
  .vec .i64x2_sub, .vec .i64x2_mul, .vec .i64x2_eq, .vec .i64x2_ne, .vec .i64x2_lt_s, .vec .i64x2_gt_s,
  .vec .i64x2_le_s, .vec .i64x2_ge_s, .vec .i64x2_extmul_low_i32x4_s, .vec .i64x2_extmul_high_i32x4_s,
  .vec .i64x2_extmul_low_i32x4_u, .vec .i64x2_extmul_high_i32x4_u, .vec .f32x4_abs, .vec .f32x4_neg,
  .vec .f32x4_sqrt, .vec .f32x4_add, .vec .f32x4_sub, .vec .f32x4_mul, .vec .f32x4_div, .vec .f32x4_min,
  .vec .f32x4_max, .vec .f32x4_pmin, .vec .f32x4_pmax, .vec .f64x2_abs, .vec .f64x2_neg, .vec .f64x2_sqrt,
  .vec .f64x2_add, .vec .f64x2_sub, .vec .f64x2_mul, .vec .f64x2_div, .vec .f64x2_min, .vec .f64x2_max,
  .vec .f64x2_pmin, .vec .f64x2_pmax, .vec .i32x4_trunc_sat_f32x4_s, .vec .i32x4_trunc_sat_f32x4_u,
  .vec .f32x4_convert_i32x4_s, .vec .f32x4_convert_i32x4_u, .vec .i32x4_trunc_sat_f64x2_s_zero,
  .vec .i32x4_trunc_sat_f64x2_u_zero, .vec .f64x2_convert_low_i32x4_s, .vec .f64x2_convert_low_i32x4_u]

/-- `b in pywasm.opcode.name` followed by `match o.opcode`, core.py:370-372: the opcode with number `b`. -/
def Opc.ofNum (b : Nat) : Option Opc := Opc.all.find? (fun o => o.num == b)

end Pywasm
