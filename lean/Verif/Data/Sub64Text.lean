/-!
# Text of `data/circ/sub64.txt`

Generated by `tools/gen_circuits.py`.
-/

namespace Verif.Data

/-- The first four lines of `data/circ/sub64.txt`. -/
def sub64Head : String := "439 567\n2 64 64 \n1 64 \n\n"

/-- What follows the last gate of `data/circ/sub64.txt`. -/
def sub64Tail : String := "\n\n"

/-- Lines 5-443 of `data/circ/sub64.txt`, 128 per string. -/
def sub64Blocks : List String := [
"2 1 63 127 439 XOR\n2 1 62 126 438 XOR\n2 1 61 125 437 XOR\n2 1 60 124 436 XOR\n2 1 59 123 435 XOR\n2 1 58 122 434 XOR\n2 1 57 121 433 XOR\n2 1 56 120 432 XOR\n2 1 55 119 431 XOR\n2 1 54 118 430 XOR\n2 1 53 117 429 XOR\n2 1 52 116 428 XOR\n2 1 51 115 427 XOR\n2 1 50 114 426 XOR\n2 1 49 113 425 XOR\n2 1 48 112 424 XOR\n2 1 47 111 423 XOR\n2 1 46 110 422 XOR\n2 1 45 109 421 XOR\n2 1 44 108 420 XOR\n2 1 43 107 419 XOR\n2 1 42 106 418 XOR\n2 1 41 105 417 XOR\n2 1 40 104 416 XOR\n2 1 39 103 415 XOR\n2 1 38 102 414 XOR\n2 1 37 101 413 XOR\n2 1 36 100 412 XOR\n2 1 35 99 411 XOR\n2 1 34 98 410 XOR\n2 1 33 97 409 XOR\n2 1 32 96 408 XOR\n2 1 31 95 407 XOR\n2 1 30 94 406 XOR\n2 1 29 93 405 XOR\n2 1 28 92 404 XOR\n2 1 27 91 403 XOR\n2 1 26 90 402 XOR\n2 1 25 89 401 XOR\n2 1 24 88 400 XOR\n2 1 23 87 399 XOR\n2 1 22 86 398 XOR\n2 1 21 85 397 XOR\n2 1 20 84 396 XOR\n2 1 19 83 395 XOR\n2 1 18 82 394 XOR\n2 1 17 81 393 XOR\n2 1 16 80 392 XOR\n2 1 15 79 391 XOR\n2 1 14 78 390 XOR\n2 1 13 77 389 XOR\n2 1 12 76 388 XOR\n2 1 11 75 387 XOR\n2 1 10 74 386 XOR\n2 1 9 73 385 XOR\n2 1 8 72 384 XOR\n2 1 7 71 383 XOR\n2 1 6 70 382 XOR\n2 1 5 69 381 XOR\n2 1 4 68 380 XOR\n2 1 3 67 379 XOR\n2 1 2 66 378 XOR\n2 1 1 65 377 XOR\n2 1 0 64 503 XOR\n1 1 0 314 INV\n2 1 314 64 440 AND\n2 1 65 440 129 XOR\n2 1 377 440 504 XOR\n1 1 1 315 INV\n2 1 315 440 128 XOR\n2 1 128 129 130 AND\n2 1 130 440 441 XOR\n2 1 66 441 132 XOR\n2 1 378 441 505 XOR\n1 1 2 316 INV\n2 1 316 441 131 XOR\n2 1 131 132 133 AND\n2 1 133 441 442 XOR\n2 1 67 442 135 XOR\n2 1 379 442 506 XOR\n1 1 3 317 INV\n2 1 317 442 134 XOR\n2 1 134 135 136 AND\n2 1 136 442 443 XOR\n2 1 68 443 138 XOR\n2 1 380 443 507 XOR\n1 1 4 318 INV\n2 1 318 443 137 XOR\n2 1 137 138 139 AND\n2 1 139 443 444 XOR\n2 1 69 444 141 XOR\n2 1 381 444 508 XOR\n1 1 5 319 INV\n2 1 319 444 140 XOR\n2 1 140 141 142 AND\n2 1 142 444 445 XOR\n2 1 70 445 144 XOR\n2 1 382 445 509 XOR\n1 1 6 320 INV\n2 1 320 445 143 XOR\n2 1 143 144 145 AND\n2 1 145 445 446 XOR\n2 1 71 446 147 XOR\n2 1 383 446 510 XOR\n1 1 7 321 INV\n2 1 321 446 146 XOR\n2 1 146 147 148 AND\n2 1 148 446 447 XOR\n2 1 72 447 150 XOR\n2 1 384 447 511 XOR\n1 1 8 322 INV\n2 1 322 447 149 XOR\n2 1 149 150 151 AND\n2 1 151 447 448 XOR\n2 1 73 448 153 XOR\n2 1 385 448 512 XOR\n1 1 9 323 INV\n2 1 323 448 152 XOR\n2 1 152 153 154 AND\n2 1 154 448 449 XOR\n2 1 74 449 156 XOR\n2 1 386 449 513 XOR\n1 1 10 324 INV\n2 1 324 449 155 XOR\n2 1 155 156 157 AND\n2 1 157 449 450 XOR\n2 1 75 450 159 XOR\n2 1 387 450 514 XOR\n",
"1 1 11 325 INV\n2 1 325 450 158 XOR\n2 1 158 159 160 AND\n2 1 160 450 451 XOR\n2 1 76 451 162 XOR\n2 1 388 451 515 XOR\n1 1 12 326 INV\n2 1 326 451 161 XOR\n2 1 161 162 163 AND\n2 1 163 451 452 XOR\n2 1 77 452 165 XOR\n2 1 389 452 516 XOR\n1 1 13 327 INV\n2 1 327 452 164 XOR\n2 1 164 165 166 AND\n2 1 166 452 453 XOR\n2 1 78 453 168 XOR\n2 1 390 453 517 XOR\n1 1 14 328 INV\n2 1 328 453 167 XOR\n2 1 167 168 169 AND\n2 1 169 453 454 XOR\n2 1 79 454 171 XOR\n2 1 391 454 518 XOR\n1 1 15 329 INV\n2 1 329 454 170 XOR\n2 1 170 171 172 AND\n2 1 172 454 455 XOR\n2 1 80 455 174 XOR\n2 1 392 455 519 XOR\n1 1 16 330 INV\n2 1 330 455 173 XOR\n2 1 173 174 175 AND\n2 1 175 455 456 XOR\n2 1 81 456 177 XOR\n2 1 393 456 520 XOR\n1 1 17 331 INV\n2 1 331 456 176 XOR\n2 1 176 177 178 AND\n2 1 178 456 457 XOR\n2 1 82 457 180 XOR\n2 1 394 457 521 XOR\n1 1 18 332 INV\n2 1 332 457 179 XOR\n2 1 179 180 181 AND\n2 1 181 457 458 XOR\n2 1 83 458 183 XOR\n2 1 395 458 522 XOR\n1 1 19 333 INV\n2 1 333 458 182 XOR\n2 1 182 183 184 AND\n2 1 184 458 459 XOR\n2 1 84 459 186 XOR\n2 1 396 459 523 XOR\n1 1 20 334 INV\n2 1 334 459 185 XOR\n2 1 185 186 187 AND\n2 1 187 459 460 XOR\n2 1 85 460 189 XOR\n2 1 397 460 524 XOR\n1 1 21 335 INV\n2 1 335 460 188 XOR\n2 1 188 189 190 AND\n2 1 190 460 461 XOR\n2 1 86 461 192 XOR\n2 1 398 461 525 XOR\n1 1 22 336 INV\n2 1 336 461 191 XOR\n2 1 191 192 193 AND\n2 1 193 461 462 XOR\n2 1 399 462 526 XOR\n2 1 87 462 195 XOR\n1 1 23 337 INV\n2 1 337 462 194 XOR\n2 1 194 195 196 AND\n2 1 196 462 463 XOR\n2 1 88 463 198 XOR\n2 1 400 463 527 XOR\n1 1 24 338 INV\n2 1 338 463 197 XOR\n2 1 197 198 199 AND\n2 1 199 463 464 XOR\n2 1 401 464 528 XOR\n2 1 89 464 201 XOR\n1 1 25 339 INV\n2 1 339 464 200 XOR\n2 1 200 201 202 AND\n2 1 202 464 465 XOR\n2 1 402 465 529 XOR\n2 1 90 465 204 XOR\n1 1 26 340 INV\n2 1 340 465 203 XOR\n2 1 203 204 205 AND\n2 1 205 465 466 XOR\n2 1 91 466 207 XOR\n2 1 403 466 530 XOR\n1 1 27 341 INV\n2 1 341 466 206 XOR\n2 1 206 207 208 AND\n2 1 208 466 467 XOR\n2 1 92 467 210 XOR\n2 1 404 467 531 XOR\n1 1 28 342 INV\n2 1 342 467 209 XOR\n2 1 209 210 211 AND\n2 1 211 467 468 XOR\n2 1 405 468 532 XOR\n2 1 93 468 213 XOR\n1 1 29 343 INV\n2 1 343 468 212 XOR\n2 1 212 213 214 AND\n2 1 214 468 469 XOR\n2 1 94 469 216 XOR\n2 1 406 469 533 XOR\n1 1 30 344 INV\n2 1 344 469 215 XOR\n2 1 215 216 217 AND\n2 1 217 469 470 XOR\n2 1 407 470 534 XOR\n2 1 95 470 219 XOR\n1 1 31 345 INV\n2 1 345 470 218 XOR\n2 1 218 219 220 AND\n2 1 220 470 471 XOR\n2 1 96 471 222 XOR\n2 1 408 471 535 XOR\n1 1 32 346 INV\n2 1 346 471 221 XOR\n",
"2 1 221 222 223 AND\n2 1 223 471 472 XOR\n2 1 97 472 225 XOR\n2 1 409 472 536 XOR\n1 1 33 347 INV\n2 1 347 472 224 XOR\n2 1 224 225 226 AND\n2 1 226 472 473 XOR\n2 1 410 473 537 XOR\n2 1 98 473 228 XOR\n1 1 34 348 INV\n2 1 348 473 227 XOR\n2 1 227 228 229 AND\n2 1 229 473 474 XOR\n2 1 411 474 538 XOR\n2 1 99 474 231 XOR\n1 1 35 349 INV\n2 1 349 474 230 XOR\n2 1 230 231 232 AND\n2 1 232 474 475 XOR\n2 1 412 475 539 XOR\n2 1 100 475 234 XOR\n1 1 36 350 INV\n2 1 350 475 233 XOR\n2 1 233 234 235 AND\n2 1 235 475 476 XOR\n2 1 413 476 540 XOR\n2 1 101 476 237 XOR\n1 1 37 351 INV\n2 1 351 476 236 XOR\n2 1 236 237 238 AND\n2 1 238 476 477 XOR\n2 1 414 477 541 XOR\n2 1 102 477 240 XOR\n1 1 38 352 INV\n2 1 352 477 239 XOR\n2 1 239 240 241 AND\n2 1 241 477 478 XOR\n2 1 103 478 243 XOR\n2 1 415 478 542 XOR\n1 1 39 353 INV\n2 1 353 478 242 XOR\n2 1 242 243 244 AND\n2 1 244 478 479 XOR\n2 1 416 479 543 XOR\n2 1 104 479 246 XOR\n1 1 40 354 INV\n2 1 354 479 245 XOR\n2 1 245 246 247 AND\n2 1 247 479 480 XOR\n2 1 417 480 544 XOR\n2 1 105 480 249 XOR\n1 1 41 355 INV\n2 1 355 480 248 XOR\n2 1 248 249 250 AND\n2 1 250 480 481 XOR\n2 1 418 481 545 XOR\n2 1 106 481 252 XOR\n1 1 42 356 INV\n2 1 356 481 251 XOR\n2 1 251 252 253 AND\n2 1 253 481 482 XOR\n2 1 107 482 255 XOR\n2 1 419 482 546 XOR\n1 1 43 357 INV\n2 1 357 482 254 XOR\n2 1 254 255 256 AND\n2 1 256 482 483 XOR\n2 1 420 483 547 XOR\n2 1 108 483 258 XOR\n1 1 44 358 INV\n2 1 358 483 257 XOR\n2 1 257 258 259 AND\n2 1 259 483 484 XOR\n2 1 109 484 261 XOR\n2 1 421 484 548 XOR\n1 1 45 359 INV\n2 1 359 484 260 XOR\n2 1 260 261 262 AND\n2 1 262 484 485 XOR\n2 1 422 485 549 XOR\n2 1 110 485 264 XOR\n1 1 46 360 INV\n2 1 360 485 263 XOR\n2 1 263 264 265 AND\n2 1 265 485 486 XOR\n2 1 423 486 550 XOR\n2 1 111 486 267 XOR\n1 1 47 361 INV\n2 1 361 486 266 XOR\n2 1 266 267 268 AND\n2 1 268 486 487 XOR\n2 1 112 487 270 XOR\n2 1 424 487 551 XOR\n1 1 48 362 INV\n2 1 362 487 269 XOR\n2 1 269 270 271 AND\n2 1 271 487 488 XOR\n2 1 113 488 273 XOR\n2 1 425 488 552 XOR\n1 1 49 363 INV\n2 1 363 488 272 XOR\n2 1 272 273 274 AND\n2 1 274 488 489 XOR\n2 1 114 489 276 XOR\n2 1 426 489 553 XOR\n1 1 50 364 INV\n2 1 364 489 275 XOR\n2 1 275 276 277 AND\n2 1 277 489 490 XOR\n2 1 115 490 279 XOR\n2 1 427 490 554 XOR\n1 1 51 365 INV\n2 1 365 490 278 XOR\n2 1 278 279 280 AND\n2 1 280 490 491 XOR\n2 1 116 491 282 XOR\n2 1 428 491 555 XOR\n1 1 52 366 INV\n2 1 366 491 281 XOR\n2 1 281 282 283 AND\n2 1 283 491 492 XOR\n2 1 117 492 285 XOR\n2 1 429 492 556 XOR\n1 1 53 367 INV\n2 1 367 492 284 XOR\n2 1 284 285 286 AND\n2 1 286 492 493 XOR\n",
"2 1 118 493 288 XOR\n2 1 430 493 557 XOR\n1 1 54 368 INV\n2 1 368 493 287 XOR\n2 1 287 288 289 AND\n2 1 289 493 494 XOR\n2 1 431 494 558 XOR\n2 1 119 494 291 XOR\n1 1 55 369 INV\n2 1 369 494 290 XOR\n2 1 290 291 292 AND\n2 1 292 494 495 XOR\n2 1 432 495 559 XOR\n2 1 120 495 294 XOR\n1 1 56 370 INV\n2 1 370 495 293 XOR\n2 1 293 294 295 AND\n2 1 295 495 496 XOR\n2 1 121 496 297 XOR\n2 1 433 496 560 XOR\n1 1 57 371 INV\n2 1 371 496 296 XOR\n2 1 296 297 298 AND\n2 1 298 496 497 XOR\n2 1 122 497 300 XOR\n2 1 434 497 561 XOR\n1 1 58 372 INV\n2 1 372 497 299 XOR\n2 1 299 300 301 AND\n2 1 301 497 498 XOR\n2 1 123 498 303 XOR\n2 1 435 498 562 XOR\n1 1 59 373 INV\n2 1 373 498 302 XOR\n2 1 302 303 304 AND\n2 1 304 498 499 XOR\n2 1 436 499 563 XOR\n2 1 124 499 306 XOR\n1 1 60 374 INV\n2 1 374 499 305 XOR\n2 1 305 306 307 AND\n2 1 307 499 500 XOR\n2 1 125 500 309 XOR\n2 1 437 500 564 XOR\n1 1 61 375 INV\n2 1 375 500 308 XOR\n2 1 308 309 310 AND\n2 1 310 500 501 XOR\n2 1 438 501 565 XOR\n2 1 126 501 312 XOR\n1 1 62 376 INV\n2 1 376 501 311 XOR\n2 1 311 312 313 AND\n2 1 313 501 502 XOR\n2 1 439 502 566 XOR\n"]

end Verif.Data
