import Verif.Model.Opcode

/-!
# The opcodes of the WebAssembly binary format

The index of instructions of the WebAssembly core specification 2.0 (appendix "Index of Instructions").  The table was
written from the specification, not from /repo/pywasm/opcode.py.
-/

namespace Pywasm.Spec.Bin

/-- How the specification denotes an instruction: one byte, or the prefix 0xFC or 0xFD followed by a `u32`. -/
inductive Code where
  | byte (b : UInt8) | fc (n : Nat) | fd (n : Nat)
  deriving DecidableEq, Repr

/-- Opcode of every instruction. -/
def code : Opc → Code
  | .unreachable => .byte 0x00
  | .nop => .byte 0x01
  | .block => .byte 0x02
  | .loop => .byte 0x03
  | .if_then => .byte 0x04
  | .else_fi => .byte 0x05
  | .end_fi => .byte 0x0B
  | .br => .byte 0x0C
  | .br_if => .byte 0x0D
  | .br_table => .byte 0x0E
  | .return_call => .byte 0x0F
  | .call => .byte 0x10
  | .call_indirect => .byte 0x11
  | .drop => .byte 0x1A
  | .select => .byte 0x1B
  | .select_type => .byte 0x1C
  | .local_get => .byte 0x20
  | .local_set => .byte 0x21
  | .local_tee => .byte 0x22
  | .global_get => .byte 0x23
  | .global_set => .byte 0x24
  | .table_get => .byte 0x25
  | .table_set => .byte 0x26
  | .load .i32_load => .byte 0x28
  | .load .i64_load => .byte 0x29
  | .load .f32_load => .byte 0x2A
  | .load .f64_load => .byte 0x2B
  | .load .i32_load8_s => .byte 0x2C
  | .load .i32_load8_u => .byte 0x2D
  | .load .i32_load16_s => .byte 0x2E
  | .load .i32_load16_u => .byte 0x2F
  | .load .i64_load8_s => .byte 0x30
  | .load .i64_load8_u => .byte 0x31
  | .load .i64_load16_s => .byte 0x32
  | .load .i64_load16_u => .byte 0x33
  | .load .i64_load32_s => .byte 0x34
  | .load .i64_load32_u => .byte 0x35
  | .store .i32_store => .byte 0x36
  | .store .i64_store => .byte 0x37
  | .store .f32_store => .byte 0x38
  | .store .f64_store => .byte 0x39
  | .store .i32_store8 => .byte 0x3A
  | .store .i32_store16 => .byte 0x3B
  | .store .i64_store8 => .byte 0x3C
  | .store .i64_store16 => .byte 0x3D
  | .store .i64_store32 => .byte 0x3E
  | .memory_size => .byte 0x3F
  | .memory_grow => .byte 0x40
  | .i32_const => .byte 0x41
  | .i64_const => .byte 0x42
  | .f32_const => .byte 0x43
  | .f64_const => .byte 0x44
  | .int .i32_eqz => .byte 0x45
  | .int .i32_eq => .byte 0x46
  | .int .i32_ne => .byte 0x47
  | .int .i32_lt_s => .byte 0x48
  | .int .i32_lt_u => .byte 0x49
  | .int .i32_gt_s => .byte 0x4A
  | .int .i32_gt_u => .byte 0x4B
  | .int .i32_le_s => .byte 0x4C
  | .int .i32_le_u => .byte 0x4D
  | .int .i32_ge_s => .byte 0x4E
  | .int .i32_ge_u => .byte 0x4F
  | .int .i64_eqz => .byte 0x50
  | .int .i64_eq => .byte 0x51
  | .int .i64_ne => .byte 0x52
  | .int .i64_lt_s => .byte 0x53
  | .int .i64_lt_u => .byte 0x54
  | .int .i64_gt_s => .byte 0x55
  | .int .i64_gt_u => .byte 0x56
  | .int .i64_le_s => .byte 0x57
  | .int .i64_le_u => .byte 0x58
  | .int .i64_ge_s => .byte 0x59
  | .int .i64_ge_u => .byte 0x5A
  | .flt .f32_eq => .byte 0x5B
  | .flt .f32_ne => .byte 0x5C
  | .flt .f32_lt => .byte 0x5D
  | .flt .f32_gt => .byte 0x5E
  | .flt .f32_le => .byte 0x5F
  | .flt .f32_ge => .byte 0x60
  | .flt .f64_eq => .byte 0x61
  | .flt .f64_ne => .byte 0x62
  | .flt .f64_lt => .byte 0x63
  | .flt .f64_gt => .byte 0x64
  | .flt .f64_le => .byte 0x65
  | .flt .f64_ge => .byte 0x66
  | .int .i32_clz => .byte 0x67
  | .int .i32_ctz => .byte 0x68
  | .int .i32_popcnt => .byte 0x69
  | .int .i32_add => .byte 0x6A
  | .int .i32_sub => .byte 0x6B
  | .int .i32_mul => .byte 0x6C
  | .int .i32_div_s => .byte 0x6D
  | .int .i32_div_u => .byte 0x6E
  | .int .i32_rem_s => .byte 0x6F
  | .int .i32_rem_u => .byte 0x70
  | .int .i32_and => .byte 0x71
  | .int .i32_or => .byte 0x72
  | .int .i32_xor => .byte 0x73
  | .int .i32_shl => .byte 0x74
  | .int .i32_shr_s => .byte 0x75
  | .int .i32_shr_u => .byte 0x76
  | .int .i32_rotl => .byte 0x77
  | .int .i32_rotr => .byte 0x78
  | .int .i64_clz => .byte 0x79
  | .int .i64_ctz => .byte 0x7A
  | .int .i64_popcnt => .byte 0x7B
  | .int .i64_add => .byte 0x7C
  | .int .i64_sub => .byte 0x7D
  | .int .i64_mul => .byte 0x7E
  | .int .i64_div_s => .byte 0x7F
  | .int .i64_div_u => .byte 0x80
  | .int .i64_rem_s => .byte 0x81
  | .int .i64_rem_u => .byte 0x82
  | .int .i64_and => .byte 0x83
  | .int .i64_or => .byte 0x84
  | .int .i64_xor => .byte 0x85
  | .int .i64_shl => .byte 0x86
  | .int .i64_shr_s => .byte 0x87
  | .int .i64_shr_u => .byte 0x88
  | .int .i64_rotl => .byte 0x89
  | .int .i64_rotr => .byte 0x8A
  | .flt .f32_abs => .byte 0x8B
  | .flt .f32_neg => .byte 0x8C
  | .flt .f32_ceil => .byte 0x8D
  | .flt .f32_floor => .byte 0x8E
  | .flt .f32_trunc => .byte 0x8F
  | .flt .f32_nearest => .byte 0x90
  | .flt .f32_sqrt => .byte 0x91
  | .flt .f32_add => .byte 0x92
  | .flt .f32_sub => .byte 0x93
  | .flt .f32_mul => .byte 0x94
  | .flt .f32_div => .byte 0x95
  | .flt .f32_min => .byte 0x96
  | .flt .f32_max => .byte 0x97
  | .flt .f32_copysign => .byte 0x98
  | .flt .f64_abs => .byte 0x99
  | .flt .f64_neg => .byte 0x9A
  | .flt .f64_ceil => .byte 0x9B
  | .flt .f64_floor => .byte 0x9C
  | .flt .f64_trunc => .byte 0x9D
  | .flt .f64_nearest => .byte 0x9E
  | .flt .f64_sqrt => .byte 0x9F
  | .flt .f64_add => .byte 0xA0
  | .flt .f64_sub => .byte 0xA1
  | .flt .f64_mul => .byte 0xA2
  | .flt .f64_div => .byte 0xA3
  | .flt .f64_min => .byte 0xA4
  | .flt .f64_max => .byte 0xA5
  | .flt .f64_copysign => .byte 0xA6
  | .int .i32_wrap_i64 => .byte 0xA7
  | .flt .i32_trunc_f32_s => .byte 0xA8
  | .flt .i32_trunc_f32_u => .byte 0xA9
  | .flt .i32_trunc_f64_s => .byte 0xAA
  | .flt .i32_trunc_f64_u => .byte 0xAB
  | .int .i64_extend_i32_s => .byte 0xAC
  | .int .i64_extend_i32_u => .byte 0xAD
  | .flt .i64_trunc_f32_s => .byte 0xAE
  | .flt .i64_trunc_f32_u => .byte 0xAF
  | .flt .i64_trunc_f64_s => .byte 0xB0
  | .flt .i64_trunc_f64_u => .byte 0xB1
  | .flt .f32_convert_i32_s => .byte 0xB2
  | .flt .f32_convert_i32_u => .byte 0xB3
  | .flt .f32_convert_i64_s => .byte 0xB4
  | .flt .f32_convert_i64_u => .byte 0xB5
  | .flt .f32_demote_f64 => .byte 0xB6
  | .flt .f64_convert_i32_s => .byte 0xB7
  | .flt .f64_convert_i32_u => .byte 0xB8
  | .flt .f64_convert_i64_s => .byte 0xB9
  | .flt .f64_convert_i64_u => .byte 0xBA
  | .flt .f64_promote_f32 => .byte 0xBB
  | .flt .i32_reinterpret_f32 => .byte 0xBC
  | .flt .i64_reinterpret_f64 => .byte 0xBD
  | .flt .f32_reinterpret_i32 => .byte 0xBE
  | .flt .f64_reinterpret_i64 => .byte 0xBF
  | .int .i32_extend8_s => .byte 0xC0
  | .int .i32_extend16_s => .byte 0xC1
  | .int .i64_extend8_s => .byte 0xC2
  | .int .i64_extend16_s => .byte 0xC3
  | .int .i64_extend32_s => .byte 0xC4
  | .ref_null => .byte 0xD0
  | .ref_is_null => .byte 0xD1
  | .ref_func => .byte 0xD2
  | .flt .i32_trunc_sat_f32_s => .fc 0
  | .flt .i32_trunc_sat_f32_u => .fc 1
  | .flt .i32_trunc_sat_f64_s => .fc 2
  | .flt .i32_trunc_sat_f64_u => .fc 3
  | .flt .i64_trunc_sat_f32_s => .fc 4
  | .flt .i64_trunc_sat_f32_u => .fc 5
  | .flt .i64_trunc_sat_f64_s => .fc 6
  | .flt .i64_trunc_sat_f64_u => .fc 7
  | .memory_init => .fc 8
  | .data_drop => .fc 9
  | .memory_copy => .fc 10
  | .memory_fill => .fc 11
  | .table_init => .fc 12
  | .elem_drop => .fc 13
  | .table_copy => .fc 14
  | .table_grow => .fc 15
  | .table_size => .fc 16
  | .table_fill => .fc 17
  | .load .v128_load => .fd 0
  | .load .v128_load8x8_s => .fd 1
  | .load .v128_load8x8_u => .fd 2
  | .load .v128_load16x4_s => .fd 3
  | .load .v128_load16x4_u => .fd 4
  | .load .v128_load32x2_s => .fd 5
  | .load .v128_load32x2_u => .fd 6
  | .load .v128_load8_splat => .fd 7
  | .load .v128_load16_splat => .fd 8
  | .load .v128_load32_splat => .fd 9
  | .load .v128_load64_splat => .fd 10
  | .store .v128_store => .fd 11
  | .v128_const => .fd 12
  | .i8x16_shuffle => .fd 13
  | .vec .i8x16_swizzle => .fd 14
  | .vec .i8x16_splat => .fd 15
  | .vec .i16x8_splat => .fd 16
  | .vec .i32x4_splat => .fd 17
  | .vec .i64x2_splat => .fd 18
  | .vec .f32x4_splat => .fd 19
  | .vec .f64x2_splat => .fd 20
  | .lane .i8x16_extract_lane_s => .fd 21
  | .lane .i8x16_extract_lane_u => .fd 22
  | .lane .i8x16_replace_lane => .fd 23
  | .lane .i16x8_extract_lane_s => .fd 24
  | .lane .i16x8_extract_lane_u => .fd 25
  | .lane .i16x8_replace_lane => .fd 26
  | .lane .i32x4_extract_lane => .fd 27
  | .lane .i32x4_replace_lane => .fd 28
  | .lane .i64x2_extract_lane => .fd 29
  | .lane .i64x2_replace_lane => .fd 30
  | .lane .f32x4_extract_lane => .fd 31
  | .lane .f32x4_replace_lane => .fd 32
  | .lane .f64x2_extract_lane => .fd 33
  | .lane .f64x2_replace_lane => .fd 34
  | .vec .i8x16_eq => .fd 35
  | .vec .i8x16_ne => .fd 36
  | .vec .i8x16_lt_s => .fd 37
  | .vec .i8x16_lt_u => .fd 38
  | .vec .i8x16_gt_s => .fd 39
  | .vec .i8x16_gt_u => .fd 40
  | .vec .i8x16_le_s => .fd 41
  | .vec .i8x16_le_u => .fd 42
  | .vec .i8x16_ge_s => .fd 43
  | .vec .i8x16_ge_u => .fd 44
  | .vec .i16x8_eq => .fd 45
  | .vec .i16x8_ne => .fd 46
  | .vec .i16x8_lt_s => .fd 47
  | .vec .i16x8_lt_u => .fd 48
  | .vec .i16x8_gt_s => .fd 49
  | .vec .i16x8_gt_u => .fd 50
  | .vec .i16x8_le_s => .fd 51
  | .vec .i16x8_le_u => .fd 52
  | .vec .i16x8_ge_s => .fd 53
  | .vec .i16x8_ge_u => .fd 54
  | .vec .i32x4_eq => .fd 55
  | .vec .i32x4_ne => .fd 56
  | .vec .i32x4_lt_s => .fd 57
  | .vec .i32x4_lt_u => .fd 58
  | .vec .i32x4_gt_s => .fd 59
  | .vec .i32x4_gt_u => .fd 60
  | .vec .i32x4_le_s => .fd 61
  | .vec .i32x4_le_u => .fd 62
  | .vec .i32x4_ge_s => .fd 63
  | .vec .i32x4_ge_u => .fd 64
  | .vec .f32x4_eq => .fd 65
  | .vec .f32x4_ne => .fd 66
  | .vec .f32x4_lt => .fd 67
  | .vec .f32x4_gt => .fd 68
  | .vec .f32x4_le => .fd 69
  | .vec .f32x4_ge => .fd 70
  | .vec .f64x2_eq => .fd 71
  | .vec .f64x2_ne => .fd 72
  | .vec .f64x2_lt => .fd 73
  | .vec .f64x2_gt => .fd 74
  | .vec .f64x2_le => .fd 75
  | .vec .f64x2_ge => .fd 76
  | .vec .v128_not => .fd 77
  | .vec .v128_and => .fd 78
  | .vec .v128_andnot => .fd 79
  | .vec .v128_or => .fd 80
  | .vec .v128_xor => .fd 81
  | .vec .v128_bitselect => .fd 82
  | .vec .v128_any_true => .fd 83
  | .load_lane .w8 => .fd 84
  | .load_lane .w16 => .fd 85
  | .load_lane .w32 => .fd 86
  | .load_lane .w64 => .fd 87
  | .store_lane .w8 => .fd 88
  | .store_lane .w16 => .fd 89
  | .store_lane .w32 => .fd 90
  | .store_lane .w64 => .fd 91
  | .load .v128_load32_zero => .fd 92
  | .load .v128_load64_zero => .fd 93
  | .vec .f32x4_demote_f64x2_zero => .fd 94
  | .vec .f64x2_promote_low_f32x4 => .fd 95
  | .vec .i8x16_abs => .fd 96
  | .vec .i8x16_neg => .fd 97
  | .vec .i8x16_popcnt => .fd 98
  | .vec .i8x16_all_true => .fd 99
  | .vec .i8x16_bitmask => .fd 100
  | .vec .i8x16_narrow_i16x8_s => .fd 101
  | .vec .i8x16_narrow_i16x8_u => .fd 102
  | .vec .f32x4_ceil => .fd 103
  | .vec .f32x4_floor => .fd 104
  | .vec .f32x4_trunc => .fd 105
  | .vec .f32x4_nearest => .fd 106
  | .vec .i8x16_shl => .fd 107
  | .vec .i8x16_shr_s => .fd 108
  | .vec .i8x16_shr_u => .fd 109
  | .vec .i8x16_add => .fd 110
  | .vec .i8x16_add_sat_s => .fd 111
  | .vec .i8x16_add_sat_u => .fd 112
  | .vec .i8x16_sub => .fd 113
  | .vec .i8x16_sub_sat_s => .fd 114
  | .vec .i8x16_sub_sat_u => .fd 115
  | .vec .f64x2_ceil => .fd 116
  | .vec .f64x2_floor => .fd 117
  | .vec .i8x16_min_s => .fd 118
  | .vec .i8x16_min_u => .fd 119
  | .vec .i8x16_max_s => .fd 120
  | .vec .i8x16_max_u => .fd 121
  | .vec .f64x2_trunc => .fd 122
  | .vec .i8x16_avgr_u => .fd 123
  | .vec .i16x8_extadd_pairwise_i8x16_s => .fd 124
  | .vec .i16x8_extadd_pairwise_i8x16_u => .fd 125
  | .vec .i32x4_extadd_pairwise_i16x8_s => .fd 126
  | .vec .i32x4_extadd_pairwise_i16x8_u => .fd 127
  | .vec .i16x8_abs => .fd 128
  | .vec .i16x8_neg => .fd 129
  | .vec .i16x8_q15mulr_sat_s => .fd 130
  | .vec .i16x8_all_true => .fd 131
  | .vec .i16x8_bitmask => .fd 132
  | .vec .i16x8_narrow_i32x4_s => .fd 133
  | .vec .i16x8_narrow_i32x4_u => .fd 134
  | .vec .i16x8_extend_low_i8x16_s => .fd 135
  | .vec .i16x8_extend_high_i8x16_s => .fd 136
  | .vec .i16x8_extend_low_i8x16_u => .fd 137
  | .vec .i16x8_extend_high_i8x16_u => .fd 138
  | .vec .i16x8_shl => .fd 139
  | .vec .i16x8_shr_s => .fd 140
  | .vec .i16x8_shr_u => .fd 141
  | .vec .i16x8_add => .fd 142
  | .vec .i16x8_add_sat_s => .fd 143
  | .vec .i16x8_add_sat_u => .fd 144
  | .vec .i16x8_sub => .fd 145
  | .vec .i16x8_sub_sat_s => .fd 146
  | .vec .i16x8_sub_sat_u => .fd 147
  | .vec .f64x2_nearest => .fd 148
  | .vec .i16x8_mul => .fd 149
  | .vec .i16x8_min_s => .fd 150
  | .vec .i16x8_min_u => .fd 151
  | .vec .i16x8_max_s => .fd 152
  | .vec .i16x8_max_u => .fd 153
  | .vec .i16x8_avgr_u => .fd 155
  | .vec .i16x8_extmul_low_i8x16_s => .fd 156
  | .vec .i16x8_extmul_high_i8x16_s => .fd 157
  | .vec .i16x8_extmul_low_i8x16_u => .fd 158
  | .vec .i16x8_extmul_high_i8x16_u => .fd 159
  | .vec .i32x4_abs => .fd 160
  | .vec .i32x4_neg => .fd 161
  | .vec .i32x4_all_true => .fd 163
  | .vec .i32x4_bitmask => .fd 164
  | .vec .i32x4_extend_low_i16x8_s => .fd 167
  | .vec .i32x4_extend_high_i16x8_s => .fd 168
  | .vec .i32x4_extend_low_i16x8_u => .fd 169
  | .vec .i32x4_extend_high_i16x8_u => .fd 170
  | .vec .i32x4_shl => .fd 171
  | .vec .i32x4_shr_s => .fd 172
  | .vec .i32x4_shr_u => .fd 173
  | .vec .i32x4_add => .fd 174
  | .vec .i32x4_sub => .fd 177
  | .vec .i32x4_mul => .fd 181
  | .vec .i32x4_min_s => .fd 182
  | .vec .i32x4_min_u => .fd 183
  | .vec .i32x4_max_s => .fd 184
  | .vec .i32x4_max_u => .fd 185
  | .vec .i32x4_dot_i16x8_s => .fd 186
  | .vec .i32x4_extmul_low_i16x8_s => .fd 188
  | .vec .i32x4_extmul_high_i16x8_s => .fd 189
  | .vec .i32x4_extmul_low_i16x8_u => .fd 190
  | .vec .i32x4_extmul_high_i16x8_u => .fd 191
  | .vec .i64x2_abs => .fd 192
  | .vec .i64x2_neg => .fd 193
  | .vec .i64x2_all_true => .fd 195
  | .vec .i64x2_bitmask => .fd 196
  | .vec .i64x2_extend_low_i32x4_s => .fd 199
  | .vec .i64x2_extend_high_i32x4_s => .fd 200
  | .vec .i64x2_extend_low_i32x4_u => .fd 201
  | .vec .i64x2_extend_high_i32x4_u => .fd 202
  | .vec .i64x2_shl => .fd 203
  | .vec .i64x2_shr_s => .fd 204
  | .vec .i64x2_shr_u => .fd 205
  | .vec .i64x2_add => .fd 206
  | .vec .i64x2_sub => .fd 209
  | .vec .i64x2_mul => .fd 213
  | .vec .i64x2_eq => .fd 214
  | .vec .i64x2_ne => .fd 215
  | .vec .i64x2_lt_s => .fd 216
  | .vec .i64x2_gt_s => .fd 217
  | .vec .i64x2_le_s => .fd 218
  | .vec .i64x2_ge_s => .fd 219
  | .vec .i64x2_extmul_low_i32x4_s => .fd 220
  | .vec .i64x2_extmul_high_i32x4_s => .fd 221
  | .vec .i64x2_extmul_low_i32x4_u => .fd 222
  | .vec .i64x2_extmul_high_i32x4_u => .fd 223
  | .vec .f32x4_abs => .fd 224
  | .vec .f32x4_neg => .fd 225
  | .vec .f32x4_sqrt => .fd 227
  | .vec .f32x4_add => .fd 228
  | .vec .f32x4_sub => .fd 229
  | .vec .f32x4_mul => .fd 230
  | .vec .f32x4_div => .fd 231
  | .vec .f32x4_min => .fd 232
  | .vec .f32x4_max => .fd 233
  | .vec .f32x4_pmin => .fd 234
  | .vec .f32x4_pmax => .fd 235
  | .vec .f64x2_abs => .fd 236
  | .vec .f64x2_neg => .fd 237
  | .vec .f64x2_sqrt => .fd 239
  | .vec .f64x2_add => .fd 240
  | .vec .f64x2_sub => .fd 241
  | .vec .f64x2_mul => .fd 242
  | .vec .f64x2_div => .fd 243
  | .vec .f64x2_min => .fd 244
  | .vec .f64x2_max => .fd 245
  | .vec .f64x2_pmin => .fd 246
  | .vec .f64x2_pmax => .fd 247
  | .vec .i32x4_trunc_sat_f32x4_s => .fd 248
  | .vec .i32x4_trunc_sat_f32x4_u => .fd 249
  | .vec .f32x4_convert_i32x4_s => .fd 250
  | .vec .f32x4_convert_i32x4_u => .fd 251
  | .vec .i32x4_trunc_sat_f64x2_s_zero => .fd 252
  | .vec .i32x4_trunc_sat_f64x2_u_zero => .fd 253
  | .vec .f64x2_convert_low_i32x4_s => .fd 254
  | .vec .f64x2_convert_low_i32x4_u => .fd 255

end Pywasm.Spec.Bin
