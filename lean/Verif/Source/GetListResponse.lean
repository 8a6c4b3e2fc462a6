import Verif.Source.Lang

/-!
# `sml/src/sml_get_list_response.c`

Written by `tools/c2lean.py`.
-/

namespace Sml.C

/-- `sml_get_list_response_init` (sml/src/sml_get_list_response.c:21-32).
```
sml_get_list_response *sml_get_list_response_init() {
  sml_get_list_response *msg = (sml_get_list_response *)malloc(sizeof(sml_get_list_response));
  *msg = (sml_get_list_response){.client_id = NULL,
                   .server_id = NULL,
                   .list_name = NULL,
                   .act_sensor_time = NULL,
                   .val_list = NULL,
                   .list_signature = NULL,
                   .act_gateway_time = NULL};

  return msg;
}
```
Variables: 0 `msg`. -/
def sml_get_list_response_init : FunDef where
  params := []
  res := none
  body := [
    .setPtr 0 (.mallocRec 7 0),
    .stRec (.var 0) [.null, .null, .null, .null, .null, .null, .null] [],
    .ret (.var 0)]

/-- `sml_get_list_response_parse` (sml/src/sml_get_list_response.c:34-80).
```
sml_get_list_response *sml_get_list_response_parse(sml_buffer *buf) {
  sml_get_list_response *msg = sml_get_list_response_init();

  if (sml_buf_get_next_type(buf) != SML_TYPE_LIST) {
    buf->error = 1;
    goto error;
  }

  if (sml_buf_get_next_length(buf) != 7) {
    buf->error = 1;
    goto error;
  }

  msg->client_id = sml_octet_string_parse(buf);
  if (sml_buf_has_errors(buf))
    goto error;

  msg->server_id = sml_octet_string_parse(buf);
  if (sml_buf_has_errors(buf))
    goto error;

  msg->list_name = sml_octet_string_parse(buf);
  if (sml_buf_has_errors(buf))
    goto error;

  msg->act_sensor_time = sml_time_parse(buf);
  if (sml_buf_has_errors(buf))
    goto error;

  msg->val_list = sml_list_parse(buf);
  if (sml_buf_has_errors(buf))
    goto error;

  msg->list_signature = sml_octet_string_parse(buf);
  if (sml_buf_has_errors(buf))
    goto error;

  msg->act_gateway_time = sml_time_parse(buf);
  if (sml_buf_has_errors(buf))
    goto error;

  return msg;

error:
  sml_get_list_response_free(msg);
  return NULL;
}
```
Variables: 0 `buf`, 1 `msg`. Labels: 0 `error`. -/
def sml_get_list_response_parse : FunDef where
  params := [none]
  res := none
  body := [
    .setPtr 1 (.call .sml_get_list_response_init []),
    .ite (.bin .ne (.call .sml_buf_get_next_type [.var 0]) (.lit .i32 112)) [
      .stInt .i32 (.var 0) 2 (.lit .i32 1),
      .goto 0] [],
    .ite (.bin .ne (.call .sml_buf_get_next_length [.var 0]) (.lit .i32 7)) [
      .stInt .i32 (.var 0) 2 (.lit .i32 1),
      .goto 0] [],
    .stPtr (.var 1) 0 (.call .sml_octet_string_parse [.var 0]),
    .ite (.call .sml_buf_has_errors [.var 0]) [
      .goto 0] [],
    .stPtr (.var 1) 1 (.call .sml_octet_string_parse [.var 0]),
    .ite (.call .sml_buf_has_errors [.var 0]) [
      .goto 0] [],
    .stPtr (.var 1) 2 (.call .sml_octet_string_parse [.var 0]),
    .ite (.call .sml_buf_has_errors [.var 0]) [
      .goto 0] [],
    .stPtr (.var 1) 3 (.call .sml_time_parse [.var 0]),
    .ite (.call .sml_buf_has_errors [.var 0]) [
      .goto 0] [],
    .stPtr (.var 1) 4 (.call .sml_list_parse [.var 0]),
    .ite (.call .sml_buf_has_errors [.var 0]) [
      .goto 0] [],
    .stPtr (.var 1) 5 (.call .sml_octet_string_parse [.var 0]),
    .ite (.call .sml_buf_has_errors [.var 0]) [
      .goto 0] [],
    .stPtr (.var 1) 6 (.call .sml_time_parse [.var 0]),
    .ite (.call .sml_buf_has_errors [.var 0]) [
      .goto 0] [],
    .ret (.var 1),
    .label 0,
    .expr (.call .sml_get_list_response_free [.var 1]),
    .ret .null]

/-- `sml_get_list_response_write` (sml/src/sml_get_list_response.c:82-92).
```
void sml_get_list_response_write(sml_get_list_response *msg, sml_buffer *buf) {
  sml_buf_set_type_and_length(buf, SML_TYPE_LIST, 7);

  sml_octet_string_write(msg->client_id, buf);
  sml_octet_string_write(msg->server_id, buf);
  sml_octet_string_write(msg->list_name, buf);
  sml_time_write(msg->act_sensor_time, buf);
  sml_list_write(msg->val_list, buf);
  sml_octet_string_write(msg->list_signature, buf);
  sml_time_write(msg->act_gateway_time, buf);
}
```
Variables: 0 `msg`, 1 `buf`. -/
def sml_get_list_response_write : FunDef where
  params := [none, none]
  res := none
  body := [
    .expr (.call .sml_buf_set_type_and_length [.var 1, .lit .i32 112, .lit .i32 7]),
    .expr (.call .sml_octet_string_write [.ldPtr (.var 0) 0, .var 1]),
    .expr (.call .sml_octet_string_write [.ldPtr (.var 0) 1, .var 1]),
    .expr (.call .sml_octet_string_write [.ldPtr (.var 0) 2, .var 1]),
    .expr (.call .sml_time_write [.ldPtr (.var 0) 3, .var 1]),
    .expr (.call .sml_list_write [.ldPtr (.var 0) 4, .var 1]),
    .expr (.call .sml_octet_string_write [.ldPtr (.var 0) 5, .var 1]),
    .expr (.call .sml_time_write [.ldPtr (.var 0) 6, .var 1])]

/-- `sml_get_list_response_free` (sml/src/sml_get_list_response.c:94-106).
```
void sml_get_list_response_free(sml_get_list_response *msg) {
  if (msg) {
    sml_octet_string_free(msg->client_id);
    sml_octet_string_free(msg->server_id);
    sml_octet_string_free(msg->list_name);
    sml_time_free(msg->act_sensor_time);
    sml_list_free(msg->val_list);
    sml_octet_string_free(msg->list_signature);
    sml_time_free(msg->act_gateway_time);

    free(msg);
  }
}
```
Variables: 0 `msg`. -/
def sml_get_list_response_free : FunDef where
  params := [none]
  res := none
  body := [
    .ite (.var 0) [
      .expr (.call .sml_octet_string_free [.ldPtr (.var 0) 0]),
      .expr (.call .sml_octet_string_free [.ldPtr (.var 0) 1]),
      .expr (.call .sml_octet_string_free [.ldPtr (.var 0) 2]),
      .expr (.call .sml_time_free [.ldPtr (.var 0) 3]),
      .expr (.call .sml_list_free [.ldPtr (.var 0) 4]),
      .expr (.call .sml_octet_string_free [.ldPtr (.var 0) 5]),
      .expr (.call .sml_time_free [.ldPtr (.var 0) 6]),
      .free (.var 0)] []]

end Sml.C
