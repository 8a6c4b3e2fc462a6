import Verif.Source.Lang

/-!
# `sml/src/sml_octet_string.c`

Written by `tools/c2lean.py`.
-/

namespace Sml.C

/-- `sml_octet_string_init` (sml/src/sml_octet_string.c:35-45).
```
octet_string *sml_octet_string_init(unsigned char *str, int length) {
  octet_string *s = (octet_string *)malloc(sizeof(octet_string));
  *s = (octet_string){.str = NULL, .len = 0};
  if (length > 0) {
    s->str = (unsigned char *)malloc(length);
    memcpy(s->str, str, length);
    s->len = length;
  }

  return s;
}
```
Variables: 0 `str`, 1 `length`, 2 `s`. -/
def sml_octet_string_init : FunDef where
  params := [none, some .i32]
  res := none
  body := [
    .setPtr 2 (.mallocRec 1 1),
    .stRec (.var 2) [.null] [(.i32, .lit .i32 0)],
    .ite (.bin .gt (.var 1) (.lit .i32 0)) [
      .stPtr (.var 2) 0 (.mallocBytes (.var 1)),
      .memcpy (.ldPtr (.var 2) 0) (.var 0) (.var 1),
      .stInt .i32 (.var 2) 0 (.var 1)] [],
    .ret (.var 2)]

/-- `sml_octet_string_init_from_hex` (sml/src/sml_octet_string.c:47-57).
```
octet_string *sml_octet_string_init_from_hex(char *str) {
  int i, len = strlen(str);
  if (len % 2 != 0) {
    return NULL;
  }
  unsigned char bytes[len / 2];
  for (i = 0; i < (len / 2); i++) {
    bytes[i] = c2ptoi(&(str[i * 2]));
  }
  return sml_octet_string_init(bytes, len / 2);
}
```
Variables: 0 `str`, 1 `i`, 2 `len`, 3 `bytes`. -/
def sml_octet_string_init_from_hex : FunDef where
  params := [none]
  res := none
  body := [
    .set .i32 2 (.strlen (.var 0)),
    .ite (.bin .ne (.bin .mod (.var 2) (.lit .i32 2)) (.lit .i32 0)) [
      .ret .null] [],
    .bytes 3 (.bin .div (.var 2) (.lit .i32 2)),
    .set .i32 1 (.lit .i32 0),
    .loop (.bin .lt (.var 1) (.bin .div (.var 2) (.lit .i32 2))) [
      .stByte .u8 (.var 3) (.var 1) (.call .c2ptoi [.addr (.var 0) (.bin .mul (.var 1) (.lit .i32 2))])] [
      .set .i32 1 (.bin .add (.var 1) (.lit .i32 1))],
    .ret (.call .sml_octet_string_init [.var 3, .bin .div (.var 2) (.lit .i32 2)])]

/-- `sml_octet_string_free` (sml/src/sml_octet_string.c:59-66).
```
void sml_octet_string_free(octet_string *str) {
  if (str) {
    if (str->str) {
      free(str->str);
    }
    free(str);
  }
}
```
Variables: 0 `str`. -/
def sml_octet_string_free : FunDef where
  params := [none]
  res := none
  body := [
    .ite (.var 0) [
      .ite (.ldPtr (.var 0) 0) [
        .free (.ldPtr (.var 0) 0)] [],
      .free (.var 0)] []]

/-- `sml_octet_string_parse` (sml/src/sml_octet_string.c:68-89).
```
octet_string *sml_octet_string_parse(sml_buffer *buf) {
  if (sml_buf_optional_is_skipped(buf)) {
    return NULL;
  }

  int l;
  if (sml_buf_get_next_type(buf) != SML_TYPE_OCTET_STRING) {
    buf->error = 1;
    return NULL;
  }

  l = sml_buf_get_next_length(buf);
  if (l < 0 || l >= (buf->buffer_len - buf->cursor)) { // sanity check: doesnt fit into buffer...
    // libFuzzer fix for crash-3b12f21fdd346700ac1a10dfebba7604be8f070c
    buf->error = 1;
    return NULL;
  }

  octet_string *str = sml_octet_string_init(sml_buf_get_current_buf(buf), l);
  sml_buf_update_bytes_read(buf, l);
  return str;
}
```
Variables: 0 `buf`, 1 `l`, 2 `str`. -/
def sml_octet_string_parse : FunDef where
  params := [none]
  res := none
  body := [
    .ite (.call .sml_buf_optional_is_skipped [.var 0]) [
      .ret .null] [],
    .ite (.bin .ne (.call .sml_buf_get_next_type [.var 0]) (.lit .i32 0)) [
      .stInt .i32 (.var 0) 2 (.lit .i32 1),
      .ret .null] [],
    .set .i32 1 (.call .sml_buf_get_next_length [.var 0]),
    .ite (.or (.bin .lt (.var 1) (.lit .i32 0)) (.bin .ge (.var 1) (.bin .sub (.ldInt .u64 (.var 0) 0) (.ldInt .u64 (.var 0) 1)))) [
      .stInt .i32 (.var 0) 2 (.lit .i32 1),
      .ret .null] [],
    .setPtr 2 (.call .sml_octet_string_init [.call .sml_buf_get_current_buf [.var 0], .var 1]),
    .expr (.call .sml_buf_update_bytes_read [.var 0, .var 1]),
    .ret (.var 2)]

/-- `sml_octet_string_write` (sml/src/sml_octet_string.c:91-100).
```
void sml_octet_string_write(octet_string *str, sml_buffer *buf) {
  if (str == 0) {
    sml_buf_optional_write(buf);
    return;
  }

  sml_buf_set_type_and_length(buf, SML_TYPE_OCTET_STRING, (unsigned int)str->len);
  memcpy(sml_buf_get_current_buf(buf), str->str, str->len);
  buf->cursor += str->len;
}
```
Variables: 0 `str`, 1 `buf`. -/
def sml_octet_string_write : FunDef where
  params := [none, none]
  res := none
  body := [
    .ite (.bin .eq (.var 0) .null) [
      .expr (.call .sml_buf_optional_write [.var 1]),
      .retVoid] [],
    .expr (.call .sml_buf_set_type_and_length [.var 1, .lit .i32 0, .cast .u32 (.ldInt .i32 (.var 0) 0)]),
    .memcpy (.call .sml_buf_get_current_buf [.var 1]) (.ldPtr (.var 0) 0) (.ldInt .i32 (.var 0) 0),
    .stInt .u64 (.var 1) 1 (.bin .add (.ldInt .u64 (.var 1) 1) (.ldInt .i32 (.var 0) 0))]

/-- `sml_octet_string_generate_uuid` (sml/src/sml_octet_string.c:102-123).
```
octet_string *sml_octet_string_generate_uuid() {
#ifndef SML_NO_UUID_LIB
  uuid_t uuid;
  uuid_generate(uuid);
#else
  unsigned char uuid[16];

// TODO add support for WIN32 systems
#ifdef __linux__
  int fd = open("/dev/urandom", O_RDONLY);
  read(fd, uuid, 16);
#else
  int i;
  for (i = 0; i < 16; i++) {
    uuid[i] = rand() % 0xFF;
  }
#endif /* __linux__ */
  uuid[6] = (uuid[6] & 0x0F) | 0x40; // set version
  uuid[8] = (uuid[8] & 0x3F) | 0x80; // set reserved bits
#endif /* SML_NO_UUID_LIB */
  return sml_octet_string_init(uuid, 16);
}
```
Variables: 0 `uuid`. -/
def sml_octet_string_generate_uuid : FunDef where
  params := []
  res := none
  body := [
    .bytes 0 (.lit .u64 16),
    .uuid (.var 0),
    .ret (.call .sml_octet_string_init [.var 0, .lit .i32 16])]

/-- `sml_octet_string_cmp` (sml/src/sml_octet_string.c:125-130).
```
int sml_octet_string_cmp(octet_string *s1, octet_string *s2) {
  if (s1->len != s2->len) {
    return -1;
  }
  return memcmp(s1->str, s2->str, s1->len);
}
```
Variables: 0 `s1`, 1 `s2`. -/
def sml_octet_string_cmp : FunDef where
  params := [none, none]
  res := some .i32
  body := [
    .ite (.bin .ne (.ldInt .i32 (.var 0) 0) (.ldInt .i32 (.var 1) 0)) [
      .ret (.lit .i32 (-1))] [],
    .ret (.memcmp (.ldPtr (.var 0) 0) (.ldPtr (.var 1) 0) (.ldInt .i32 (.var 0) 0))]

/-- `sml_octet_string_cmp_with_hex` (sml/src/sml_octet_string.c:132-141).
```
int sml_octet_string_cmp_with_hex(octet_string *str, char *hex) {
  octet_string *hstr = sml_octet_string_init_from_hex(hex);
  if (str->len != hstr->len) {
    sml_octet_string_free(hstr);
    return -1;
  }
  int result = memcmp(str->str, hstr->str, str->len);
  sml_octet_string_free(hstr);
  return result;
}
```
Variables: 0 `str`, 1 `hex`, 2 `hstr`, 3 `result`. -/
def sml_octet_string_cmp_with_hex : FunDef where
  params := [none, none]
  res := some .i32
  body := [
    .setPtr 2 (.call .sml_octet_string_init_from_hex [.var 1]),
    .ite (.bin .ne (.ldInt .i32 (.var 0) 0) (.ldInt .i32 (.var 2) 0)) [
      .expr (.call .sml_octet_string_free [.var 2]),
      .ret (.lit .i32 (-1))] [],
    .set .i32 3 (.memcmp (.ldPtr (.var 0) 0) (.ldPtr (.var 2) 0) (.ldInt .i32 (.var 0) 0)),
    .expr (.call .sml_octet_string_free [.var 2]),
    .ret (.var 3)]

/-- `ctoi` (sml/src/sml_octet_string.c:143-154).
```
uint8_t ctoi(uint8_t c) {
  uint8_t ret = 0;

  if ((c >= '0') && (c <= '9')) {
    ret = c - '0';
  } else if ((c >= 'a') && (c <= 'f')) {
    ret = c - 'a' + 10;
  } else if ((c >= 'A') && (c <= 'F')) {
    ret = c - 'A' + 10;
  }
  return ret;
}
```
Variables: 0 `c`, 1 `ret`. -/
def ctoi : FunDef where
  params := [some .u8]
  res := some .u8
  body := [
    .set .u8 1 (.lit .i32 0),
    .ite (.and (.bin .ge (.var 0) (.lit .i32 48)) (.bin .le (.var 0) (.lit .i32 57))) [
      .set .u8 1 (.bin .sub (.var 0) (.lit .i32 48))] [
      .ite (.and (.bin .ge (.var 0) (.lit .i32 97)) (.bin .le (.var 0) (.lit .i32 102))) [
        .set .u8 1 (.bin .add (.bin .sub (.var 0) (.lit .i32 97)) (.lit .i32 10))] [
        .ite (.and (.bin .ge (.var 0) (.lit .i32 65)) (.bin .le (.var 0) (.lit .i32 70))) [
          .set .u8 1 (.bin .add (.bin .sub (.var 0) (.lit .i32 65)) (.lit .i32 10))] []]],
    .ret (.var 1)]

/-- `c2toi` (sml/src/sml_octet_string.c:156).
```
uint8_t c2toi(uint8_t c1, uint8_t c2) { return ctoi(c1) << 4 | ctoi(c2); }
```
Variables: 0 `c1`, 1 `c2`. -/
def c2toi : FunDef where
  params := [some .u8, some .u8]
  res := some .u8
  body := [
    .ret (.bin .bor (.bin .shl (.call .ctoi [.var 0]) (.lit .i32 4)) (.call .ctoi [.var 1]))]

/-- `c2ptoi` (sml/src/sml_octet_string.c:158).
```
uint8_t c2ptoi(char *c) { return ctoi((uint8_t)c[0]) << 4 | ctoi((uint8_t)c[1]); }
```
Variables: 0 `c`. -/
def c2ptoi : FunDef where
  params := [none]
  res := some .u8
  body := [
    .ret (.bin .bor (.bin .shl (.call .ctoi [.cast .u8 (.byte .i8 (.var 0) (.lit .i32 0))]) (.lit .i32 4)) (.call .ctoi [.cast .u8 (.byte .i8 (.var 0) (.lit .i32 1))]))]

end Sml.C
