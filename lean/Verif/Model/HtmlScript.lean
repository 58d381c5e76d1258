import Verif.Model.HtmlExport

/-!
# The script of an exported page: src/export/html_navigation.js

The text of the file, cut where the importer of HTML (src/import/html.rs) cuts it. The last piece lacks the closing tag of the
script, which the exporter writes after the file.
-/

namespace PptRs.HtmlExport

open PptRs

/-- src/export/html_navigation.js 1-35. -/
def script0 : Str := c!"// HTML Navigation JavaScript for PowerPoint Exports\n\nlet currentSlide = 0;\nlet slides = [];\n\n// Initialize on page load\ndocument.addEventListener('DOMContentLoaded', function() {\n    slides = document.querySelectorAll('.slide');\n    currentSlide = 0;\n    showSlide(currentSlide);\n    updateCounter();\n\n    // Add keyboard navigation\n    document.addEventListener('keydown', handleKeyPress);\n\n    // Add touch/swipe support for mobile\n    let touchStartX = 0;\n    let touchEndX = 0;\n\n    document.addEventListener('touchstart', function(e) {\n        touchStartX = e.changedTouches[0].screenX;\n    });\n\n    document.addEventListener('touchend', function(e) {\n        touchEndX = e.changedTouches[0].screenX;\n        handleSwipe();\n    });\n\n    function handleSwipe() {\n        const swipeThreshold = 50;\n        const diff = touchStartX - touchEndX;\n\n        if (diff > swipeThreshold) {\n            nextSlide();\n        } else if (diff "

/-- src/export/html_navigation.js 35-43. -/
def script1 : Str := c!"< -swipeThreshold) {\n            previousSlide();\n        }\n    }\n});\n\nfunction showSlide(index) {\n    // Hide all slides\n    slides.forEach((slide, i) =>"

/-- src/export/html_navigation.js 43-62. -/
def script2 : Str := c!" {\n        slide.classList.remove('active');\n        if (i === index) {\n            slide.classList.add('active');\n        }\n    });\n\n    // Update slide counter\n    updateCounter();\n\n    // Update button states\n    const prevBtn = document.getElementById('prevBtn');\n    const nextBtn = document.getElementById('nextBtn');\n\n    if (prevBtn) prevBtn.disabled = (index === 0);\n    if (nextBtn) nextBtn.disabled = (index === slides.length - 1);\n}\n\nfunction nextSlide() {\n    if (currentSlide "

/-- src/export/html_navigation.js 62-69. -/
def script3 : Str := c!"< slides.length - 1) {\n        currentSlide++;\n        showSlide(currentSlide);\n    }\n}\n\nfunction previousSlide() {\n    if (currentSlide >"

/-- src/export/html_navigation.js 69-76. -/
def script4 : Str := c!" 0) {\n        currentSlide--;\n        showSlide(currentSlide);\n    }\n}\n\nfunction goToSlide(index) {\n    if (index >= 0 && index "

/-- src/export/html_navigation.js 76-127. -/
def script5 : Str := c!"< slides.length) {\n        currentSlide = index;\n        showSlide(currentSlide);\n    }\n}\n\nfunction updateCounter() {\n    const counter = document.getElementById('slideCounter');\n    if (counter) {\n        counter.textContent = `${currentSlide + 1} / ${slides.length}`;\n    }\n}\n\nfunction handleKeyPress(event) {\n    switch(event.key) {\n        case 'ArrowRight':\n        case ' ':\n        case 'Enter':\n            event.preventDefault();\n            nextSlide();\n            break;\n        case 'ArrowLeft':\n            event.preventDefault();\n            previousSlide();\n            break;\n        case 'Home':\n            event.preventDefault();\n            goToSlide(0);\n            break;\n        case 'End':\n            event.preventDefault();\n            goToSlide(slides.length - 1);\n            break;\n        case 'n':\n            // Toggle notes mode\n            document.body.classList.toggle('notes-mode');\n            document.body.classList.toggle('presentation-mode');\n            break;\n        case 'f':\n            // Toggle fullscreen\n            if (document.fullscreenElement) {\n                document.exitFullscreen();\n            } else {\n                document.documentElement.requestFullscreen();\n            }\n            break;\n    }\n}\n\n// Auto-play functionality (optional)\nfunction startAutoPlay(interval = 5000) {\n    return setInterval(() =>"

/-- src/export/html_navigation.js 127-128. -/
def script6 : Str := c!" {\n        if (currentSlide "

/-- src/export/html_navigation.js 128-138. -/
def script7 : Str := c!"< slides.length - 1) {\n            nextSlide();\n        } else {\n            goToSlide(0); // Loop back to start\n        }\n    }, interval);\n}\n\nfunction stopAutoPlay(timerId) {\n    clearInterval(timerId);\n}"

/-- src/export/html_navigation.js. -/
def navigationScript : Str := script0 ++ script1 ++ script2 ++ script3
  ++ script4 ++ script5 ++ script6 ++ script7

end PptRs.HtmlExport
