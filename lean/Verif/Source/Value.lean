import Verif.Source.Lang

/-!
# `sml/src/sml_value.c`

Written by `tools/c2lean.py`.
-/

namespace Sml.C

/-- `sml_value_parse` (sml/src/sml_value.c:23-62).
```
sml_value *sml_value_parse(sml_buffer *buf) {
  if (sml_buf_optional_is_skipped(buf)) {
    return NULL;
  }

  int max = 1;
  int type = sml_buf_get_next_type(buf);
  unsigned char byte = sml_buf_get_current_byte(buf);

  sml_value *value = sml_value_init();
  value->type = type;

  switch (type) {
  case SML_TYPE_OCTET_STRING:
    value->data.bytes = sml_octet_string_parse(buf);
    break;
  case SML_TYPE_BOOLEAN:
    value->data.boolean = sml_boolean_parse(buf);
    break;
  case SML_TYPE_UNSIGNED:
  case SML_TYPE_INTEGER:
    // get maximal size, if not all bytes are used (example: only 6 bytes for a u64)
    while (max < ((byte & SML_LENGTH_FIELD) - 1)) {
      max <<= 1;
    }

    value->data.uint8 = sml_number_parse(buf, type, max);
    value->type |= max;
    break;
  default:
    buf->error = 1;
    break;
  }
  if (sml_buf_has_errors(buf)) {
    sml_value_free(value);
    return NULL;
  }

  return value;
}
```
Variables: 0 `buf`, 1 `max`, 2 `type`, 3 `byte`, 4 `value`. -/
def sml_value_parse : FunDef where
  params := [none]
  res := none
  body := [
    .ite (.call .sml_buf_optional_is_skipped [.var 0]) [
      .ret .null] [],
    .set .i32 1 (.lit .i32 1),
    .set .i32 2 (.call .sml_buf_get_next_type [.var 0]),
    .set .u8 3 (.call .sml_buf_get_current_byte [.var 0]),
    .setPtr 4 (.call .sml_value_init []),
    .stInt .u8 (.var 4) 0 (.var 2),
    .switch (.var 2) [
      .case 0,
      .stPtr (.var 4) 0 (.call .sml_octet_string_parse [.var 0]),
      .brk,
      .case 64,
      .stPtr (.var 4) 0 (.call .sml_boolean_parse [.var 0]),
      .brk,
      .case 96,
      .case 80,
      .loop (.bin .lt (.var 1) (.bin .sub (.bin .band (.var 3) (.lit .i32 15)) (.lit .i32 1))) [
        .set .i32 1 (.bin .shl (.var 1) (.lit .i32 1))] [],
      .stPtr (.var 4) 0 (.call .sml_number_parse [.var 0, .var 2, .var 1]),
      .stInt .u8 (.var 4) 0 (.bin .bor (.ldInt .u8 (.var 4) 0) (.var 1)),
      .brk,
      .dflt,
      .stInt .i32 (.var 0) 2 (.lit .i32 1),
      .brk],
    .ite (.call .sml_buf_has_errors [.var 0]) [
      .expr (.call .sml_value_free [.var 4]),
      .ret .null] [],
    .ret (.var 4)]

/-- `sml_value_write` (sml/src/sml_value.c:64-83).
```
void sml_value_write(sml_value *value, sml_buffer *buf) {
  if (value == 0) {
    sml_buf_optional_write(buf);
    return;
  }

  switch (value->type & SML_TYPE_FIELD) {
  case SML_TYPE_OCTET_STRING:
    sml_octet_string_write(value->data.bytes, buf);
    break;
  case SML_TYPE_BOOLEAN:
    sml_boolean_write(value->data.boolean, buf);
    break;
  case SML_TYPE_UNSIGNED:
  case SML_TYPE_INTEGER:
    sml_number_write(value->data.uint8, (value->type & SML_TYPE_FIELD),
             (value->type & SML_LENGTH_FIELD), buf);
    break;
  }
}
```
Variables: 0 `value`, 1 `buf`. -/
def sml_value_write : FunDef where
  params := [none, none]
  res := none
  body := [
    .ite (.bin .eq (.var 0) .null) [
      .expr (.call .sml_buf_optional_write [.var 1]),
      .retVoid] [],
    .switch (.bin .band (.ldInt .u8 (.var 0) 0) (.lit .i32 112)) [
      .case 0,
      .expr (.call .sml_octet_string_write [.ldPtr (.var 0) 0, .var 1]),
      .brk,
      .case 64,
      .expr (.call .sml_boolean_write [.ldPtr (.var 0) 0, .var 1]),
      .brk,
      .case 96,
      .case 80,
      .expr (.call .sml_number_write [.ldPtr (.var 0) 0, .bin .band (.ldInt .u8 (.var 0) 0) (.lit .i32 112), .bin .band (.ldInt .u8 (.var 0) 0) (.lit .i32 15), .var 1]),
      .brk]]

/-- `sml_value_init` (sml/src/sml_value.c:85-90).
```
sml_value *sml_value_init() {
  sml_value *value = (sml_value *)malloc(sizeof(sml_value));
  *value = (sml_value){.type = SML_TYPE_OCTET_STRING, .data.bytes = NULL};

  return value;
}
```
Variables: 0 `value`. -/
def sml_value_init : FunDef where
  params := []
  res := none
  body := [
    .setPtr 0 (.mallocRec 1 1),
    .stRec (.var 0) [.null] [(.u8, .lit .i32 0)],
    .ret (.var 0)]

/-- `sml_value_free` (sml/src/sml_value.c:92-107).
```
void sml_value_free(sml_value *value) {
  if (value) {
    switch (value->type) {
    case SML_TYPE_OCTET_STRING:
      sml_octet_string_free(value->data.bytes);
      break;
    case SML_TYPE_BOOLEAN:
      sml_boolean_free(value->data.boolean);
      break;
    default:
      sml_number_free(value->data.int8);
      break;
    }
    free(value);
  }
}
```
Variables: 0 `value`. -/
def sml_value_free : FunDef where
  params := [none]
  res := none
  body := [
    .ite (.var 0) [
      .switch (.ldInt .u8 (.var 0) 0) [
        .case 0,
        .expr (.call .sml_octet_string_free [.ldPtr (.var 0) 0]),
        .brk,
        .case 64,
        .expr (.call .sml_boolean_free [.ldPtr (.var 0) 0]),
        .brk,
        .dflt,
        .expr (.call .sml_number_free [.ldPtr (.var 0) 0]),
        .brk],
      .free (.var 0)] []]

/-- `sml_value_to_double` (sml/src/sml_value.c:109-140).
```
double sml_value_to_double(sml_value *value) {
  switch (value->type) {
  case 0x51:
    return *value->data.int8;
    break;
  case 0x52:
    return *value->data.int16;
    break;
  case 0x54:
    return *value->data.int32;
    break;
  case 0x58:
    return *value->data.int64;
    break;
  case 0x61:
    return *value->data.uint8;
    break;
  case 0x62:
    return *value->data.uint16;
    break;
  case 0x64:
    return *value->data.uint32;
    break;
  case 0x68:
    return *value->data.uint64;
    break;

  default:
    fprintf(stderr, "libsml: error: unknown type %d in %s\n", value->type, __func__);
    return 0;
  }
}
```
Variables: 0 `value`. -/
def sml_value_to_double : FunDef where
  params := [none]
  res := none
  body := [
    .switch (.ldInt .u8 (.var 0) 0) [
      .case 81,
      .ret (.toDbl (.deref .i8 (.ldPtr (.var 0) 0))),
      .brk,
      .case 82,
      .ret (.toDbl (.deref .i16 (.ldPtr (.var 0) 0))),
      .brk,
      .case 84,
      .ret (.toDbl (.deref .i32 (.ldPtr (.var 0) 0))),
      .brk,
      .case 88,
      .ret (.toDbl (.deref .i64 (.ldPtr (.var 0) 0))),
      .brk,
      .case 97,
      .ret (.toDbl (.deref .u8 (.ldPtr (.var 0) 0))),
      .brk,
      .case 98,
      .ret (.toDbl (.deref .u16 (.ldPtr (.var 0) 0))),
      .brk,
      .case 100,
      .ret (.toDbl (.deref .u32 (.ldPtr (.var 0) 0))),
      .brk,
      .case 104,
      .ret (.toDbl (.deref .u64 (.ldPtr (.var 0) 0))),
      .brk,
      .dflt,
      .print [.ldInt .u8 (.var 0) 0],
      .ret (.toDbl (.lit .i32 0))]]

/-- `sml_value_to_strhex` (sml/src/sml_value.c:146-175).
```
char *sml_value_to_strhex(sml_value *value, char **result, bool mixed) {
  const char hex_str[] = "0123456789abcdef";

  if (value == NULL || value->data.bytes == NULL || value->data.bytes->str == NULL)
    return NULL;

  int len = value->data.bytes->len;
  unsigned char *str = value->data.bytes->str;

  // allocate 3 bytes per octet string byte (0x0f gets "0f ")
  *result = malloc(len * 3 + 1);
  if (*result == NULL)
    return NULL;

  char *res_ptr = *result;
  for (int i = 0; i < len; i++) {
    if (mixed && (str[i] > 0x20 && str[i] < 0x7b)) {
      *res_ptr++ = (char)str[i];
    } else {
      mixed = false;
      *res_ptr++ = hex_str[(str[i] >> 4) & 0x0F];
      *res_ptr++ = hex_str[str[i] & 0x0F];
      *res_ptr++ = ' ';
    }
  }
  // mark end of string
  *res_ptr = 0;

  return *result;
}
```
Variables: 0 `value`, 1 `result`, 2 `mixed`, 3 `len`, 4 `str`, 5 `res_ptr`, 6 `i`. -/
def sml_value_to_strhex : FunDef where
  params := [none, none, some .bool]
  res := none
  body := [
    .ite (.or (.or (.bin .eq (.var 0) .null) (.bin .eq (.ldPtr (.var 0) 0) .null)) (.bin .eq (.ldPtr (.ldPtr (.var 0) 0) 0) .null)) [
      .ret .null] [],
    .set .i32 3 (.ldInt .i32 (.ldPtr (.var 0) 0) 0),
    .setPtr 4 (.ldPtr (.ldPtr (.var 0) 0) 0),
    .stPtr (.var 1) 0 (.mallocBytes (.bin .add (.bin .mul (.var 3) (.lit .i32 3)) (.lit .i32 1))),
    .ite (.bin .eq (.ldPtr (.var 1) 0) .null) [
      .ret .null] [],
    .setPtr 5 (.ldPtr (.var 1) 0),
    .set .i32 6 (.lit .i32 0),
    .loop (.bin .lt (.var 6) (.var 3)) [
      .ite (.and (.var 2) (.and (.bin .gt (.byte .u8 (.var 4) (.var 6)) (.lit .i32 32)) (.bin .lt (.byte .u8 (.var 4) (.var 6)) (.lit .i32 123)))) [
        .stDeref .i8 (.incPtr 5) (.cast .i8 (.byte .u8 (.var 4) (.var 6)))] [
        .set .bool 2 (.lit .i32 0),
        .stDeref .i8 (.incPtr 5) (.tab .i8 [48, 49, 50, 51, 52, 53, 54, 55, 56, 57, 97, 98, 99, 100, 101, 102, 0] (.bin .band (.bin .shr (.byte .u8 (.var 4) (.var 6)) (.lit .i32 4)) (.lit .i32 15))),
        .stDeref .i8 (.incPtr 5) (.tab .i8 [48, 49, 50, 51, 52, 53, 54, 55, 56, 57, 97, 98, 99, 100, 101, 102, 0] (.bin .band (.byte .u8 (.var 4) (.var 6)) (.lit .i32 15))),
        .stDeref .i8 (.incPtr 5) (.lit .i32 32)]] [
      .set .i32 6 (.bin .add (.var 6) (.lit .i32 1))],
    .stDeref .i8 (.var 5) (.lit .i32 0),
    .ret (.ldPtr (.var 1) 0)]

end Sml.C
