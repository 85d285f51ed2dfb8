import Verif.Py.Json
/-!
# The published JSON Schema
-/

namespace Verif

/-- the content of /repo/json_schemas/DeepAnwendungshandbuchSchema.json, which json_schemas/generate_json_schemas.py:16-28 has
written (the script itself and marshmallow-jsonschema are not modelled) -/
def publishedSchema : Json :=
  .obj [
    (py!"$ref", .str py!"#/definitions/DeepAnwendungshandbuchSchema"),
    (py!"$schema", .str py!"http://json-schema.org/draft-07/schema#"),
    (py!"definitions", .obj [
      (py!"AhbMetaInformationSchema", .obj [
        (py!"additionalProperties", .bool false),
        (py!"properties", .obj [
          (py!"pruefidentifikator", .obj [(py!"title", .str py!"pruefidentifikator"), (py!"type", .str py!"string")])]),
        (py!"required", .arr [.str py!"pruefidentifikator"]),
        (py!"type", .str py!"object")]),
      (py!"DataElementFreeTextSchema", .obj [
        (py!"additionalProperties", .bool false),
        (py!"properties", .obj [
          (py!"ahb_expression", .obj [(py!"title", .str py!"ahb_expression"), (py!"type", .str py!"string")]),
          (py!"data_element_id", .obj [(py!"title", .str py!"data_element_id"), (py!"type", .str py!"string")]),
          (py!"discriminator", .obj [(py!"title", .str py!"discriminator"), (py!"type", .str py!"string")]),
          (py!"entered_input", .obj [(py!"title", .str py!"entered_input"), (py!"type", .arr [.str py!"string", .str py!"null"])]),
          (py!"value_type", .obj [
            (py!"enum", .arr [.str py!"TEXT", .str py!"DATETIME", .str py!"VALUE_POOL"]),
            (py!"title", .str py!"value_type"),
            (py!"type", .str py!"string")])]),
        (py!"required", .arr [.str py!"ahb_expression", .str py!"data_element_id", .str py!"discriminator"]),
        (py!"type", .str py!"object")]),
      (py!"DataElementValuePoolSchema", .obj [
        (py!"additionalProperties", .bool false),
        (py!"properties", .obj [
          (py!"data_element_id", .obj [(py!"title", .str py!"data_element_id"), (py!"type", .str py!"string")]),
          (py!"discriminator", .obj [(py!"title", .str py!"discriminator"), (py!"type", .str py!"string")]),
          (py!"value_pool", .obj [
            (py!"items", .obj [(py!"$ref", .str py!"#/definitions/ValuePoolEntrySchema"), (py!"type", .str py!"object")]),
            (py!"title", .str py!"value_pool"),
            (py!"type", .str py!"array")]),
          (py!"value_type", .obj [
            (py!"enum", .arr [.str py!"TEXT", .str py!"DATETIME", .str py!"VALUE_POOL"]),
            (py!"title", .str py!"value_type"),
            (py!"type", .str py!"string")])]),
        (py!"required", .arr [.str py!"data_element_id", .str py!"discriminator", .str py!"value_pool"]),
        (py!"type", .str py!"object")]),
      (py!"DeepAnwendungshandbuchSchema", .obj [
        (py!"additionalProperties", .bool false),
        (py!"properties", .obj [
          (py!"lines", .obj [
            (py!"items", .obj [(py!"$ref", .str py!"#/definitions/SegmentGroupSchema"), (py!"type", .str py!"object")]),
            (py!"title", .str py!"lines"),
            (py!"type", .str py!"array")]),
          (py!"meta", .obj [(py!"$ref", .str py!"#/definitions/AhbMetaInformationSchema"), (py!"type", .str py!"object")])]),
        (py!"type", .str py!"object")]),
      (py!"SegmentGroupSchema", .obj [
        (py!"additionalProperties", .bool false),
        (py!"properties", .obj [
          (py!"ahb_expression", .obj [(py!"title", .str py!"ahb_expression"), (py!"type", .str py!"string")]),
          (py!"discriminator", .obj [(py!"title", .str py!"discriminator"), (py!"type", .str py!"string")]),
          (py!"segment_groups", .obj [
            (py!"items", .obj [(py!"$ref", .str py!"#/definitions/SegmentGroupSchema"), (py!"type", .str py!"object")]),
            (py!"title", .str py!"segment_groups"),
            (py!"type", .arr [.str py!"array", .str py!"null"])]),
          (py!"segments", .obj [
            (py!"items", .obj [(py!"$ref", .str py!"#/definitions/SegmentSchema"), (py!"type", .str py!"object")]),
            (py!"title", .str py!"segments"),
            (py!"type", .arr [.str py!"array", .str py!"null"])])]),
        (py!"required", .arr [.str py!"ahb_expression", .str py!"discriminator"]),
        (py!"type", .str py!"object")]),
      (py!"SegmentSchema", .obj [
        (py!"additionalProperties", .bool false),
        (py!"properties", .obj [
          (py!"ahb_expression", .obj [(py!"title", .str py!"ahb_expression"), (py!"type", .str py!"string")]),
          (py!"data_elements", .obj [
            (py!"items", .obj [
              (py!"$ref", .str py!"#/definitions/_FreeTextOrValuePoolSchema"),
              (py!"type", .str py!"object")]),
            (py!"title", .str py!"data_elements"),
            (py!"type", .str py!"array")]),
          (py!"discriminator", .obj [(py!"title", .str py!"discriminator"), (py!"type", .str py!"string")]),
          (py!"section_name", .obj [(py!"title", .str py!"section_name"), (py!"type", .str py!"string")])]),
        (py!"required", .arr [.str py!"ahb_expression", .str py!"discriminator"]),
        (py!"type", .str py!"object")]),
      (py!"ValuePoolEntrySchema", .obj [
        (py!"additionalProperties", .bool false),
        (py!"properties", .obj [
          (py!"ahb_expression", .obj [(py!"title", .str py!"ahb_expression"), (py!"type", .str py!"string")]),
          (py!"meaning", .obj [(py!"title", .str py!"meaning"), (py!"type", .str py!"string")]),
          (py!"qualifier", .obj [(py!"title", .str py!"qualifier"), (py!"type", .str py!"string")])]),
        (py!"required", .arr [.str py!"ahb_expression", .str py!"meaning", .str py!"qualifier"]),
        (py!"type", .str py!"object")]),
      (py!"_FreeTextOrValuePoolSchema", .obj [
        (py!"additionalProperties", .bool false),
        (py!"properties", .obj [
          (py!"free_text", .obj [
            (py!"$ref", .str py!"#/definitions/DataElementFreeTextSchema"),
            (py!"type", .str py!"object")]),
          (py!"value_pool", .obj [
            (py!"$ref", .str py!"#/definitions/DataElementValuePoolSchema"),
            (py!"type", .str py!"object")])]),
        (py!"type", .str py!"object")])])]

end Verif
