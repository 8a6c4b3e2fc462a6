import Verif.Source.Lang

/-!
# `sml/src/sml_file.c`

Written by `tools/c2lean.py`.
-/

namespace Sml.C

/-- `sml_file_parse` (sml/src/sml_file.c:30-61).
```
sml_file *sml_file_parse(unsigned char *buffer, size_t buffer_len) {
  sml_file *file = (sml_file *)malloc(sizeof(sml_file));
  *file = (sml_file){.messages = NULL, .messages_len = 0, .buf = NULL};

  sml_buffer *buf = sml_buffer_init(buffer_len);
  memcpy(buf->buffer, buffer, buffer_len);
  file->buf = buf;

  sml_message *msg;

  // parsing all messages
  for (; buf->cursor < buf->buffer_len;) {

    if (sml_buf_get_current_byte(buf) == SML_MESSAGE_END) {
      // reading trailing zeroed bytes
      sml_buf_update_bytes_read(buf, 1);
      continue;
    }

    msg = sml_message_parse(buf);

    if (sml_buf_has_errors(buf)) {
      fprintf(stderr, "libsml: warning: could not read the whole file\n");
      break;
    }

    if (msg)
      sml_file_add_message(file, msg);
  }

  return file;
}
```
Variables: 0 `buffer`, 1 `buffer_len`, 2 `file`, 3 `buf`, 4 `msg`. -/
def sml_file_parse : FunDef where
  params := [none, some .u64]
  res := none
  body := [
    .setPtr 2 (.mallocRec 2 1),
    .stRec (.var 2) [.null, .null] [(.i16, .lit .i32 0)],
    .setPtr 3 (.call .sml_buffer_init [.var 1]),
    .memcpy (.ldPtr (.var 3) 0) (.var 0) (.var 1),
    .stPtr (.var 2) 1 (.var 3),
    .loop (.bin .lt (.ldInt .u64 (.var 3) 1) (.ldInt .u64 (.var 3) 0)) [
      .ite (.bin .eq (.call .sml_buf_get_current_byte [.var 3]) (.lit .i32 0)) [
        .expr (.call .sml_buf_update_bytes_read [.var 3, .lit .i32 1]),
        .cont] [],
      .setPtr 4 (.call .sml_message_parse [.var 3]),
      .ite (.call .sml_buf_has_errors [.var 3]) [
        .print [],
        .brk] [],
      .ite (.var 4) [
        .expr (.call .sml_file_add_message [.var 2, .var 4])] []] [],
    .ret (.var 2)]

/-- `sml_file_init` (sml/src/sml_file.c:63-71).
```
sml_file *sml_file_init() {
  sml_file *file = (sml_file *)malloc(sizeof(sml_file));
  *file = (sml_file){.messages = NULL, .messages_len = 0, .buf = NULL};

  sml_buffer *buf = sml_buffer_init(SML_FILE_BUFFER_LENGTH);
  file->buf = buf;

  return file;
}
```
Variables: 0 `file`, 1 `buf`. -/
def sml_file_init : FunDef where
  params := []
  res := none
  body := [
    .setPtr 0 (.mallocRec 2 1),
    .stRec (.var 0) [.null, .null] [(.i16, .lit .i32 0)],
    .setPtr 1 (.call .sml_buffer_init [.lit .i32 512]),
    .stPtr (.var 0) 1 (.var 1),
    .ret (.var 0)]

/-- `sml_file_add_message` (sml/src/sml_file.c:73-78).
```
void sml_file_add_message(sml_file *file, sml_message *message) {
  file->messages_len++;
  file->messages =
    (sml_message **)realloc(file->messages, sizeof(sml_message *) * file->messages_len);
  file->messages[file->messages_len - 1] = message;
}
```
Variables: 0 `file`, 1 `message`. -/
def sml_file_add_message : FunDef where
  params := [none, none]
  res := none
  body := [
    .stInt .i16 (.var 0) 0 (.bin .add (.ldInt .i16 (.var 0) 0) (.lit .i32 1)),
    .stPtr (.var 0) 0 (.realloc (.ldPtr (.var 0) 0) (.bin .mul (.lit .u64 8) (.ldInt .i16 (.var 0) 0))),
    .stElem (.ldPtr (.var 0) 0) (.bin .sub (.ldInt .i16 (.var 0) 0) (.lit .i32 1)) (.var 1)]

/-- `sml_file_write` (sml/src/sml_file.c:80-88).
```
void sml_file_write(sml_file *file) {
  int i;

  if (file->messages && file->messages_len > 0) {
    for (i = 0; i < file->messages_len; i++) {
      sml_message_write(file->messages[i], file->buf);
    }
  }
}
```
Variables: 0 `file`, 1 `i`. -/
def sml_file_write : FunDef where
  params := [none]
  res := none
  body := [
    .ite (.and (.ldPtr (.var 0) 0) (.bin .gt (.ldInt .i16 (.var 0) 0) (.lit .i32 0))) [
      .set .i32 1 (.lit .i32 0),
      .loop (.bin .lt (.var 1) (.ldInt .i16 (.var 0) 0)) [
        .expr (.call .sml_message_write [.elem (.ldPtr (.var 0) 0) (.var 1), .ldPtr (.var 0) 1])] [
        .set .i32 1 (.bin .add (.var 1) (.lit .i32 1))]] []]

/-- `sml_file_free` (sml/src/sml_file.c:90-106).
```
void sml_file_free(sml_file *file) {
  if (file) {
    if (file->messages) {
      int i;
      for (i = 0; i < file->messages_len; i++) {
        sml_message_free(file->messages[i]);
      }
      free(file->messages);
    }

    if (file->buf) {
      sml_buffer_free(file->buf);
    }

    free(file);
  }
}
```
Variables: 0 `file`, 1 `i`. -/
def sml_file_free : FunDef where
  params := [none]
  res := none
  body := [
    .ite (.var 0) [
      .ite (.ldPtr (.var 0) 0) [
        .set .i32 1 (.lit .i32 0),
        .loop (.bin .lt (.var 1) (.ldInt .i16 (.var 0) 0)) [
          .expr (.call .sml_message_free [.elem (.ldPtr (.var 0) 0) (.var 1)])] [
          .set .i32 1 (.bin .add (.var 1) (.lit .i32 1))],
        .free (.ldPtr (.var 0) 0)] [],
      .ite (.ldPtr (.var 0) 1) [
        .expr (.call .sml_buffer_free [.ldPtr (.var 0) 1])] [],
      .free (.var 0)] []]

/-- `sml_file_print` (sml/src/sml_file.c:108-115).
```
void sml_file_print(sml_file *file) {
  int i;

  printf("SML file (%d SML messages, %zu bytes)\n", file->messages_len, file->buf->cursor);
  for (i = 0; i < file->messages_len; i++) {
    printf("SML message %4.X\n", *(file->messages[i]->message_body->tag));
  }
}
```
Variables: 0 `file`, 1 `i`. -/
def sml_file_print : FunDef where
  params := [none]
  res := none
  body := [
    .printf [.text "SML file (", .dec, .text " SML messages, ", .size, .text " bytes)\n"] [.ldInt .i16 (.var 0) 0, .ldInt .u64 (.ldPtr (.var 0) 1) 1],
    .set .i32 1 (.lit .i32 0),
    .loop (.bin .lt (.var 1) (.ldInt .i16 (.var 0) 0)) [
      .printf [.text "SML message ", .hex4, .text "\n"] [.deref .u32 (.ldPtr (.ldPtr (.elem (.ldPtr (.var 0) 0) (.var 1)) 3) 0)]] [
      .set .i32 1 (.bin .add (.var 1) (.lit .i32 1))]]

end Sml.C
