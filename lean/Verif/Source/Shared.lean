import Verif.Source.Lang

/-!
# `sml/src/sml_shared.c`

Written by `tools/c2lean.py`.
-/

namespace Sml.C

/-- `sml_buf_get_next_length` (sml/src/sml_shared.c:23-55).
```
int sml_buf_get_next_length(sml_buffer *buf) {
  int length = 0;

  // current byte available?
  if ((buf->cursor + 1) > buf->buffer_len) {
    buf->error = 1;
    return -1;
  }
  unsigned char byte = sml_buf_get_current_byte(buf);
  int list = ((byte & SML_TYPE_FIELD) == SML_TYPE_LIST) ? 0 : -1;

  for (; buf->cursor < buf->buffer_len;) {
    byte = sml_buf_get_current_byte(buf);
    length <<= 4;
    length |= (byte & SML_LENGTH_FIELD);

    if ((byte & SML_ANOTHER_TL) != SML_ANOTHER_TL) {
      break;
    }
    sml_buf_update_bytes_read(buf, 1);
    if (list) {
      list += -1;
    }
  }
  if (buf->cursor < buf->buffer_len) {
    sml_buf_update_bytes_read(buf, 1);
  } else {
    buf->error = 1;
    return -1;
  }

  return length + list;
}
```
Variables: 0 `buf`, 1 `length`, 2 `byte`, 3 `list`. -/
def sml_buf_get_next_length : FunDef where
  params := [none]
  res := some .i32
  body := [
    .set .i32 1 (.lit .i32 0),
    .ite (.bin .gt (.bin .add (.ldInt .u64 (.var 0) 1) (.lit .i32 1)) (.ldInt .u64 (.var 0) 0)) [
      .stInt .i32 (.var 0) 2 (.lit .i32 1),
      .ret (.lit .i32 (-1))] [],
    .set .u8 2 (.call .sml_buf_get_current_byte [.var 0]),
    .set .i32 3 (.cond (.bin .eq (.bin .band (.var 2) (.lit .i32 112)) (.lit .i32 112)) (.lit .i32 0) (.lit .i32 (-1))),
    .loop (.bin .lt (.ldInt .u64 (.var 0) 1) (.ldInt .u64 (.var 0) 0)) [
      .set .u8 2 (.call .sml_buf_get_current_byte [.var 0]),
      .set .i32 1 (.bin .shl (.var 1) (.lit .i32 4)),
      .set .i32 1 (.bin .bor (.var 1) (.bin .band (.var 2) (.lit .i32 15))),
      .ite (.bin .ne (.bin .band (.var 2) (.lit .i32 128)) (.lit .i32 128)) [
        .brk] [],
      .expr (.call .sml_buf_update_bytes_read [.var 0, .lit .i32 1]),
      .ite (.var 3) [
        .set .i32 3 (.bin .add (.var 3) (.lit .i32 (-1)))] []] [],
    .ite (.bin .lt (.ldInt .u64 (.var 0) 1) (.ldInt .u64 (.var 0) 0)) [
      .expr (.call .sml_buf_update_bytes_read [.var 0, .lit .i32 1])] [
      .stInt .i32 (.var 0) 2 (.lit .i32 1),
      .ret (.lit .i32 (-1))],
    .ret (.bin .add (.var 1) (.var 3))]

/-- `sml_buf_set_type_and_length` (sml/src/sml_shared.c:57-101).
```
void sml_buf_set_type_and_length(sml_buffer *buf, unsigned int type, unsigned int l) {
  // set the type
  buf->buffer[buf->cursor] = type;

  if (type != SML_TYPE_LIST) {
    l++;
  }

  if (l > SML_LENGTH_FIELD) {

    // how much shifts are necessary
    int mask_pos = (sizeof(unsigned int) * 2) - 1;

    // the 4 most significant bits of l (1111 0000 0000 ...)
    unsigned int mask = 0xF0 << (8 * (sizeof(unsigned int) - 1));

    // select the next 4 most significant bits with a bit set until there
    // is something
    while (!(mask & l)) {
      mask >>= 4;
      mask_pos--;
    }

    l += mask_pos; // for every TL-field

    if ((0x0F << (4 * (mask_pos + 1))) & l) {
      // for the rare case that the addition of the number of TL-fields
      // result in another TL-field.
      mask_pos++;
      l++;
    }

    // copy 4 bits of the number to the buffer
    while (mask > SML_LENGTH_FIELD) {
      buf->buffer[buf->cursor] |= SML_ANOTHER_TL;
      buf->buffer[buf->cursor] |= ((mask & l) >> (4 * mask_pos));
      mask >>= 4;
      mask_pos--;
      buf->cursor++;
    }
  }

  buf->buffer[buf->cursor] |= (l & SML_LENGTH_FIELD);
  buf->cursor++;
}
```
Variables: 0 `buf`, 1 `type`, 2 `l`, 3 `mask_pos`, 4 `mask`. -/
def sml_buf_set_type_and_length : FunDef where
  params := [none, some .u32, some .u32]
  res := none
  body := [
    .stByte .u8 (.ldPtr (.var 0) 0) (.ldInt .u64 (.var 0) 1) (.var 1),
    .ite (.bin .ne (.var 1) (.lit .i32 112)) [
      .set .u32 2 (.bin .add (.var 2) (.lit .i32 1))] [],
    .ite (.bin .gt (.var 2) (.lit .i32 15)) [
      .set .i32 3 (.lit .u64 7),
      .set .u32 4 (.lit .i32 (-268435456)),
      .loop (.not (.bin .band (.var 4) (.var 2))) [
        .set .u32 4 (.bin .shr (.var 4) (.lit .i32 4)),
        .set .i32 3 (.bin .sub (.var 3) (.lit .i32 1))] [],
      .set .u32 2 (.bin .add (.var 2) (.var 3)),
      .ite (.bin .band (.bin .shl (.lit .i32 15) (.bin .mul (.lit .i32 4) (.bin .add (.var 3) (.lit .i32 1)))) (.var 2)) [
        .set .i32 3 (.bin .add (.var 3) (.lit .i32 1)),
        .set .u32 2 (.bin .add (.var 2) (.lit .i32 1))] [],
      .loop (.bin .gt (.var 4) (.lit .i32 15)) [
        .stByte .u8 (.ldPtr (.var 0) 0) (.ldInt .u64 (.var 0) 1) (.bin .bor (.byte .u8 (.ldPtr (.var 0) 0) (.ldInt .u64 (.var 0) 1)) (.lit .i32 128)),
        .stByte .u8 (.ldPtr (.var 0) 0) (.ldInt .u64 (.var 0) 1) (.bin .bor (.byte .u8 (.ldPtr (.var 0) 0) (.ldInt .u64 (.var 0) 1)) (.bin .shr (.bin .band (.var 4) (.var 2)) (.bin .mul (.lit .i32 4) (.var 3)))),
        .set .u32 4 (.bin .shr (.var 4) (.lit .i32 4)),
        .set .i32 3 (.bin .sub (.var 3) (.lit .i32 1)),
        .stInt .u64 (.var 0) 1 (.bin .add (.ldInt .u64 (.var 0) 1) (.lit .i32 1))] []] [],
    .stByte .u8 (.ldPtr (.var 0) 0) (.ldInt .u64 (.var 0) 1) (.bin .bor (.byte .u8 (.ldPtr (.var 0) 0) (.ldInt .u64 (.var 0) 1)) (.bin .band (.var 2) (.lit .i32 15))),
    .stInt .u64 (.var 0) 1 (.bin .add (.ldInt .u64 (.var 0) 1) (.lit .i32 1))]

/-- `sml_buf_has_errors` (sml/src/sml_shared.c:103).
```
int sml_buf_has_errors(sml_buffer *buf) { return buf->error != 0; }
```
Variables: 0 `buf`. -/
def sml_buf_has_errors : FunDef where
  params := [none]
  res := some .i32
  body := [
    .ret (.bin .ne (.ldInt .i32 (.var 0) 2) (.lit .i32 0))]

/-- `sml_buf_get_next_type` (sml/src/sml_shared.c:105-111).
```
int sml_buf_get_next_type(sml_buffer *buf) {
  if (buf->cursor >= buf->buffer_len) {
    buf->error = 1;
    return 0x100; // invalid type.
  } else
    return (buf->buffer[buf->cursor] & SML_TYPE_FIELD);
}
```
Variables: 0 `buf`. -/
def sml_buf_get_next_type : FunDef where
  params := [none]
  res := some .i32
  body := [
    .ite (.bin .ge (.ldInt .u64 (.var 0) 1) (.ldInt .u64 (.var 0) 0)) [
      .stInt .i32 (.var 0) 2 (.lit .i32 1),
      .ret (.lit .i32 256)] [
      .ret (.bin .band (.byte .u8 (.ldPtr (.var 0) 0) (.ldInt .u64 (.var 0) 1)) (.lit .i32 112))]]

/-- `sml_buf_get_current_byte` (sml/src/sml_shared.c:113).
```
unsigned char sml_buf_get_current_byte(sml_buffer *buf) { return buf->buffer[buf->cursor]; }
```
Variables: 0 `buf`. -/
def sml_buf_get_current_byte : FunDef where
  params := [none]
  res := some .u8
  body := [
    .ret (.byte .u8 (.ldPtr (.var 0) 0) (.ldInt .u64 (.var 0) 1))]

/-- `sml_buf_get_current_buf` (sml/src/sml_shared.c:115).
```
unsigned char *sml_buf_get_current_buf(sml_buffer *buf) { return &(buf->buffer[buf->cursor]); }
```
Variables: 0 `buf`. -/
def sml_buf_get_current_buf : FunDef where
  params := [none]
  res := none
  body := [
    .ret (.addr (.ldPtr (.var 0) 0) (.ldInt .u64 (.var 0) 1))]

/-- `sml_buf_update_bytes_read` (sml/src/sml_shared.c:117).
```
void sml_buf_update_bytes_read(sml_buffer *buf, int bytes) { buf->cursor += bytes; }
```
Variables: 0 `buf`, 1 `bytes`. -/
def sml_buf_update_bytes_read : FunDef where
  params := [none, some .i32]
  res := none
  body := [
    .stInt .u64 (.var 0) 1 (.bin .add (.ldInt .u64 (.var 0) 1) (.var 1))]

/-- `sml_buffer_init` (sml/src/sml_shared.c:119-128).
```
sml_buffer *sml_buffer_init(size_t length) {
  sml_buffer *buf = (sml_buffer *)malloc(sizeof(sml_buffer));
  *buf =
    (sml_buffer){.buffer = NULL, .buffer_len = 0, .cursor = 0, .error = 0, .error_msg = NULL};
  buf->buffer = (unsigned char *)malloc(length);
  buf->buffer_len = length;
  memset(buf->buffer, 0, buf->buffer_len);

  return buf;
}
```
Variables: 0 `length`, 1 `buf`. -/
def sml_buffer_init : FunDef where
  params := [some .u64]
  res := none
  body := [
    .setPtr 1 (.mallocRec 2 3),
    .stRec (.var 1) [.null, .null] [(.u64, .lit .i32 0), (.u64, .lit .i32 0), (.i32, .lit .i32 0)],
    .stPtr (.var 1) 0 (.mallocBytes (.var 0)),
    .stInt .u64 (.var 1) 0 (.var 0),
    .memset (.ldPtr (.var 1) 0) (.lit .i32 0) (.ldInt .u64 (.var 1) 0),
    .ret (.var 1)]

/-- `sml_buf_optional_write` (sml/src/sml_shared.c:130-133).
```
void sml_buf_optional_write(sml_buffer *buf) {
  buf->buffer[buf->cursor] = SML_OPTIONAL_SKIPPED;
  buf->cursor++;
}
```
Variables: 0 `buf`. -/
def sml_buf_optional_write : FunDef where
  params := [none]
  res := none
  body := [
    .stByte .u8 (.ldPtr (.var 0) 0) (.ldInt .u64 (.var 0) 1) (.lit .i32 1),
    .stInt .u64 (.var 0) 1 (.bin .add (.ldInt .u64 (.var 0) 1) (.lit .i32 1))]

/-- `sml_buffer_free` (sml/src/sml_shared.c:135-143).
```
void sml_buffer_free(sml_buffer *buf) {
  if (buf) {
    if (buf->buffer)
      free(buf->buffer);
    if (buf->error_msg)
      free(buf->error_msg);
    free(buf);
  }
}
```
Variables: 0 `buf`. -/
def sml_buffer_free : FunDef where
  params := [none]
  res := none
  body := [
    .ite (.var 0) [
      .ite (.ldPtr (.var 0) 0) [
        .free (.ldPtr (.var 0) 0)] [],
      .ite (.ldPtr (.var 0) 1) [
        .free (.ldPtr (.var 0) 1)] [],
      .free (.var 0)] []]

/-- `sml_buf_optional_is_skipped` (sml/src/sml_shared.c:145-163).
```
int sml_buf_optional_is_skipped(sml_buffer *buf) {

  if (buf->cursor >= buf->buffer_len) {
    buf->error = 1;
    return -1;
  }

  if (sml_buf_get_current_byte(buf) == SML_OPTIONAL_SKIPPED) {
    if (buf->cursor + 1 > buf->buffer_len) {
      buf->error = 1;
      return -1;
    }
    sml_buf_update_bytes_read(buf, 1);

    return 1;
  }

  return 0;
}
```
Variables: 0 `buf`. -/
def sml_buf_optional_is_skipped : FunDef where
  params := [none]
  res := some .i32
  body := [
    .ite (.bin .ge (.ldInt .u64 (.var 0) 1) (.ldInt .u64 (.var 0) 0)) [
      .stInt .i32 (.var 0) 2 (.lit .i32 1),
      .ret (.lit .i32 (-1))] [],
    .ite (.bin .eq (.call .sml_buf_get_current_byte [.var 0]) (.lit .i32 1)) [
      .ite (.bin .gt (.bin .add (.ldInt .u64 (.var 0) 1) (.lit .i32 1)) (.ldInt .u64 (.var 0) 0)) [
        .stInt .i32 (.var 0) 2 (.lit .i32 1),
        .ret (.lit .i32 (-1))] [],
      .expr (.call .sml_buf_update_bytes_read [.var 0, .lit .i32 1]),
      .ret (.lit .i32 1)] [],
    .ret (.lit .i32 0)]

/-- `sml_hexdump` (sml/src/sml_shared.c:165-173).
```
void sml_hexdump(unsigned char *buffer, size_t buffer_len) {
  for (size_t i = 0; i < buffer_len; i++) {
    printf("%02X ", (unsigned char)buffer[i]);
    if ((i + 1) % 8 == 0) {
      printf("\n");
    }
  }
  puts("");
}
```
Variables: 0 `buffer`, 1 `buffer_len`, 2 `i`. -/
def sml_hexdump : FunDef where
  params := [none, some .u64]
  res := none
  body := [
    .set .u64 2 (.lit .i32 0),
    .loop (.bin .lt (.var 2) (.var 1)) [
      .printf [.hex2, .text " "] [.cast .u8 (.byte .u8 (.var 0) (.var 2))],
      .ite (.bin .eq (.bin .mod (.bin .add (.var 2) (.lit .i32 1)) (.lit .i32 8)) (.lit .i32 0)) [
        .printf [.text "\n"] []] []] [
      .set .u64 2 (.bin .add (.var 2) (.lit .i32 1))],
    .printf [.text "\n"] []]

end Sml.C
