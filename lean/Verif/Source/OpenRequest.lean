import Verif.Source.Lang

/-!
# `sml/src/sml_open_request.c`

Written by `tools/c2lean.py`.
-/

namespace Sml.C

/-- `sml_open_request_init` (sml/src/sml_open_request.c:23-33).
```
sml_open_request *sml_open_request_init() {
  sml_open_request *open_request = (sml_open_request *)malloc(sizeof(sml_open_request));
  *open_request = (sml_open_request){.codepage = NULL,
                     .client_id = NULL,
                     .req_file_id = NULL,
                     .server_id = NULL,
                     .username = NULL,
                     .password = NULL,
                     .sml_version = NULL};
  return open_request;
}
```
Variables: 0 `open_request`. -/
def sml_open_request_init : FunDef where
  params := []
  res := none
  body := [
    .setPtr 0 (.mallocRec 7 0),
    .stRec (.var 0) [.null, .null, .null, .null, .null, .null, .null] [],
    .ret (.var 0)]

/-- `sml_open_request_parse` (sml/src/sml_open_request.c:35-81).
```
sml_open_request *sml_open_request_parse(sml_buffer *buf) {
  sml_open_request *msg = sml_open_request_init();

  if (sml_buf_get_next_type(buf) != SML_TYPE_LIST) {
    buf->error = 1;
    goto error;
  }

  if (sml_buf_get_next_length(buf) != 7) {
    buf->error = 1;
    goto error;
  }

  msg->codepage = sml_octet_string_parse(buf);
  if (sml_buf_has_errors(buf))
    goto error;

  msg->client_id = sml_octet_string_parse(buf);
  if (sml_buf_has_errors(buf))
    goto error;

  msg->req_file_id = sml_octet_string_parse(buf);
  if (sml_buf_has_errors(buf))
    goto error;

  msg->server_id = sml_octet_string_parse(buf);
  if (sml_buf_has_errors(buf))
    goto error;

  msg->username = sml_octet_string_parse(buf);
  if (sml_buf_has_errors(buf))
    goto error;

  msg->password = sml_octet_string_parse(buf);
  if (sml_buf_has_errors(buf))
    goto error;

  msg->sml_version = sml_u8_parse(buf);
  if (sml_buf_has_errors(buf))
    goto error;

  return msg;

error:
  sml_open_request_free(msg);
  return NULL;
}
```
Variables: 0 `buf`, 1 `msg`. Labels: 0 `error`. -/
def sml_open_request_parse : FunDef where
  params := [none]
  res := none
  body := [
    .setPtr 1 (.call .sml_open_request_init []),
    .ite (.bin .ne (.call .sml_buf_get_next_type [.var 0]) (.lit .i32 112)) [
      .stInt .i32 (.var 0) 2 (.lit .i32 1),
      .goto 0] [],
    .ite (.bin .ne (.call .sml_buf_get_next_length [.var 0]) (.lit .i32 7)) [
      .stInt .i32 (.var 0) 2 (.lit .i32 1),
      .goto 0] [],
    .stPtr (.var 1) 0 (.call .sml_octet_string_parse [.var 0]),
    .ite (.call .sml_buf_has_errors [.var 0]) [
      .goto 0] [],
    .stPtr (.var 1) 1 (.call .sml_octet_string_parse [.var 0]),
    .ite (.call .sml_buf_has_errors [.var 0]) [
      .goto 0] [],
    .stPtr (.var 1) 2 (.call .sml_octet_string_parse [.var 0]),
    .ite (.call .sml_buf_has_errors [.var 0]) [
      .goto 0] [],
    .stPtr (.var 1) 3 (.call .sml_octet_string_parse [.var 0]),
    .ite (.call .sml_buf_has_errors [.var 0]) [
      .goto 0] [],
    .stPtr (.var 1) 4 (.call .sml_octet_string_parse [.var 0]),
    .ite (.call .sml_buf_has_errors [.var 0]) [
      .goto 0] [],
    .stPtr (.var 1) 5 (.call .sml_octet_string_parse [.var 0]),
    .ite (.call .sml_buf_has_errors [.var 0]) [
      .goto 0] [],
    .stPtr (.var 1) 6 (.call .sml_number_parse [.var 0, .lit .i32 96, .lit .u64 1]),
    .ite (.call .sml_buf_has_errors [.var 0]) [
      .goto 0] [],
    .ret (.var 1),
    .label 0,
    .expr (.call .sml_open_request_free [.var 1]),
    .ret .null]

/-- `sml_open_request_write` (sml/src/sml_open_request.c:83-93).
```
void sml_open_request_write(sml_open_request *msg, sml_buffer *buf) {
  sml_buf_set_type_and_length(buf, SML_TYPE_LIST, 7);

  sml_octet_string_write(msg->codepage, buf);
  sml_octet_string_write(msg->client_id, buf);
  sml_octet_string_write(msg->req_file_id, buf);
  sml_octet_string_write(msg->server_id, buf);
  sml_octet_string_write(msg->username, buf);
  sml_octet_string_write(msg->password, buf);
  sml_u8_write(msg->sml_version, buf);
}
```
Variables: 0 `msg`, 1 `buf`. -/
def sml_open_request_write : FunDef where
  params := [none, none]
  res := none
  body := [
    .expr (.call .sml_buf_set_type_and_length [.var 1, .lit .i32 112, .lit .i32 7]),
    .expr (.call .sml_octet_string_write [.ldPtr (.var 0) 0, .var 1]),
    .expr (.call .sml_octet_string_write [.ldPtr (.var 0) 1, .var 1]),
    .expr (.call .sml_octet_string_write [.ldPtr (.var 0) 2, .var 1]),
    .expr (.call .sml_octet_string_write [.ldPtr (.var 0) 3, .var 1]),
    .expr (.call .sml_octet_string_write [.ldPtr (.var 0) 4, .var 1]),
    .expr (.call .sml_octet_string_write [.ldPtr (.var 0) 5, .var 1]),
    .expr (.call .sml_number_write [.ldPtr (.var 0) 6, .lit .i32 96, .lit .u64 1, .var 1])]

/-- `sml_open_request_free` (sml/src/sml_open_request.c:95-107).
```
void sml_open_request_free(sml_open_request *msg) {
  if (msg) {
    sml_octet_string_free(msg->codepage);
    sml_octet_string_free(msg->client_id);
    sml_octet_string_free(msg->req_file_id);
    sml_octet_string_free(msg->server_id);
    sml_octet_string_free(msg->username);
    sml_octet_string_free(msg->password);
    sml_number_free(msg->sml_version);

    free(msg);
  }
}
```
Variables: 0 `msg`. -/
def sml_open_request_free : FunDef where
  params := [none]
  res := none
  body := [
    .ite (.var 0) [
      .expr (.call .sml_octet_string_free [.ldPtr (.var 0) 0]),
      .expr (.call .sml_octet_string_free [.ldPtr (.var 0) 1]),
      .expr (.call .sml_octet_string_free [.ldPtr (.var 0) 2]),
      .expr (.call .sml_octet_string_free [.ldPtr (.var 0) 3]),
      .expr (.call .sml_octet_string_free [.ldPtr (.var 0) 4]),
      .expr (.call .sml_octet_string_free [.ldPtr (.var 0) 5]),
      .expr (.call .sml_number_free [.ldPtr (.var 0) 6]),
      .free (.var 0)] []]

end Sml.C
